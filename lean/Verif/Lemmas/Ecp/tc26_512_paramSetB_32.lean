import Verif.Model.Ecp.tc26_512_paramSetB_32
import Verif.Lemmas.FiatField
import Verif.Model.EcParams

/-!
# The field arithmetic of `/repo/ecp_id_tc26_gost_3410_2012_512_paramSetB.c`, 32 bit version

Certificates, generated by `tools/mkfiat.py`.
-/

namespace Gost.Ecp_tc26_512_paramSetB_32

open Fiat

set_option maxRecDepth 1000000

local notation "p" => ec_tc26_512_paramSetB.p

/-- The weights of the limbs. -/
def W : List Nat := [1, 0x100000000, 0x10000000000000000, 0x1000000000000000000000000, 0x100000000000000000000000000000000, 0x10000000000000000000000000000000000000000, 0x1000000000000000000000000000000000000000000000000, 0x100000000000000000000000000000000000000000000000000000000, 0x10000000000000000000000000000000000000000000000000000000000000000, 0x1000000000000000000000000000000000000000000000000000000000000000000000000, 0x100000000000000000000000000000000000000000000000000000000000000000000000000000000, 0x10000000000000000000000000000000000000000000000000000000000000000000000000000000000000000, 0x1000000000000000000000000000000000000000000000000000000000000000000000000000000000000000000000000, 0x100000000000000000000000000000000000000000000000000000000000000000000000000000000000000000000000000000000, 0x10000000000000000000000000000000000000000000000000000000000000000000000000000000000000000000000000000000000000000, 0x1000000000000000000000000000000000000000000000000000000000000000000000000000000000000000000000000000000000000000000000000]
def W1 : List Nat := [1, 0x100000000, 0x10000000000000000, 0x1000000000000000000000000, 0x100000000000000000000000000000000, 0x10000000000000000000000000000000000000000, 0x1000000000000000000000000000000000000000000000000, 0x100000000000000000000000000000000000000000000000000000000, 0x10000000000000000000000000000000000000000000000000000000000000000, 0x1000000000000000000000000000000000000000000000000000000000000000000000000, 0x100000000000000000000000000000000000000000000000000000000000000000000000000000000, 0x10000000000000000000000000000000000000000000000000000000000000000000000000000000000000000, 0x1000000000000000000000000000000000000000000000000000000000000000000000000000000000000000000000000, 0x100000000000000000000000000000000000000000000000000000000000000000000000000000000000000000000000000000000, 0x10000000000000000000000000000000000000000000000000000000000000000000000000000000000000000000000000000000000000000, 0x1000000000000000000000000000000000000000000000000000000000000000000000000000000000000000000000000000000000000000000000000, 0x100000000000000000000000000000000000000000000000000000000000000000000000000000000000000000000000000000000000000000000000000000000]
def full : List Nat := [0xffffffff, 0xffffffff, 0xffffffff, 0xffffffff, 0xffffffff, 0xffffffff, 0xffffffff, 0xffffffff, 0xffffffff, 0xffffffff, 0xffffffff, 0xffffffff, 0xffffffff, 0xffffffff, 0xffffffff, 0xffffffff]
def full1 : List Nat := [0xffffffff, 0xffffffff, 0xffffffff, 0xffffffff, 0xffffffff, 0xffffffff, 0xffffffff, 0xffffffff, 0xffffffff, 0xffffffff, 0xffffffff, 0xffffffff, 0xffffffff, 0xffffffff, 0xffffffff, 0xffffffff, 0xffffffff]
def R : Nat := 13407807929942597099574024998205846127479365820592393377723561443721764030073546976801874298166903427690031858186486050853753882811946569946433649006084096
def R2 : Nat := 49284

def k1 : RedCert where
  zs := [86, 0xdf, 0x169, 0x1f3, 0x27d, 0x307, 0x391, 0x41b, 0x4a5, 0x52f, 0x5b9, 0x643, 0x6cd, 0x757, 0x7e1, 0x86b]
  zc := [[0x6f0000000030, 0x10000000032, 0x10000000033],
    [0x6f0000000075, 0x10000000077, 0x10000000078],
    [0x6f00000000bb, 0x100000000bd, 0x100000000be],
    [0x6f0000000101, 0x10000000103, 0x10000000104],
    [0x6f0000000147, 0x10000000149, 0x1000000014a],
    [0x6f000000018d, 0x1000000018f, 0x10000000190],
    [0x6f00000001d3, 0x100000001d5, 0x100000001d6],
    [0x6f0000000219, 0x1000000021b, 0x1000000021c],
    [0x6f000000025f, 0x10000000261, 0x10000000262],
    [0x6f00000002a5, 0x100000002a7, 0x100000002a8],
    [0x6f00000002eb, 0x100000002ed, 0x100000002ee],
    [0x6f0000000331, 0x10000000333, 0x10000000334],
    [0x6f0000000377, 0x10000000379, 0x1000000037a],
    [0x6f00000003bd, 0x100000003bf, 0x100000003c0],
    [0x6f0000000403, 0x10000000405, 0x10000000406],
    [0x6f0000000449, 0x1000000044b, 0x1000000044c]]
  qs := [80, 0xd9, 0x163, 0x1ed, 0x277, 0x301, 0x38b, 0x415, 0x49f, 0x529, 0x5b3, 0x63d, 0x6c7, 0x751, 0x7db, 0x865]
  main := [
  0x1000000000000000000000000000000000000000000000000000000000000000000000000000000000000000000000000000000000000000000000000000000000003e00000,
  0x10000000000000000000000000000000000000000000000000000000000000000000000000000000000000000000000000000000000000000000000000003a00000,
  0x100000000000000000000000000000000000000000000000000000000000000000000000000000000000000000000000000000000000000000003600000,
  0x1000000000000000000000000000000000000000000000000000000000000000000000000000000000000000000000000000000000003200000,
  0x10000000000000000000000000000000000000000000000000000000000000000000000000000000000000000000000000002e00000,
  0x100000000000000000000000000000000000000000000000000000000000000000000000000000000000000000002a00000,
  0x1000000000000000000000000000000000000000000000000000000000000000000000000000000000002600000,
  0x10000000000000000000000000000000000000000000000000000000000000000000000000002200000,
  0x100000000000000000000000000000000000000000000000000000000000000000001e00000,
  0x1000000000000000000000000000000000000000000000000000000000001a00000, 0x10000000000000000000000000000000000000000000000000001600000,
  0x100000000000000000000000000000000000000000001200000, 0x1000000000000000000000000000000000000e00000,
  0x10000000000000000000000000000a00000, 0x100000000000000000000600000, 0x1000000000000200000,
  0x100000000000000000000000000000000000000000000000000000000000000000000000000000000000000000000000000000000000000000000000000000000000000000003e00001,
  0x1000000000000000000000000000000000000000000000000000000000000000000000000000000000000000000000000000000000000000000000000000000000003a00001,
  0x10000000000000000000000000000000000000000000000000000000000000000000000000000000000000000000000000000000000000000000000000003600001,
  0x100000000000000000000000000000000000000000000000000000000000000000000000000000000000000000000000000000000000000000003200001,
  0x1000000000000000000000000000000000000000000000000000000000000000000000000000000000000000000000000000000000002e00001,
  0x10000000000000000000000000000000000000000000000000000000000000000000000000000000000000000000000000002a00001,
  0x100000000000000000000000000000000000000000000000000000000000000000000000000000000000000000002600001,
  0x1000000000000000000000000000000000000000000000000000000000000000000000000000000000002200001,
  0x10000000000000000000000000000000000000000000000000000000000000000000000000001e00001,
  0x100000000000000000000000000000000000000000000000000000000000000000001a00001,
  0x1000000000000000000000000000000000000000000000000000000000001600001, 0x10000000000000000000000000000000000000000000000000001200001,
  0x100000000000000000000000000000000000000000000e00001, 0x1000000000000000000000000000000000000a00001,
  0x10000000000000000000000000000600001, 0x100000000000000000000200001,
  0x10000000000000000000000000000000000000000000000000000000000000000000000000000000000000000000000000000000000000000000000000000000000000000000000000003e00002,
  0x100000000000000000000000000000000000000000000000000000000000000000000000000000000000000000000000000000000000000000000000000000000000000000003a00002,
  0x1000000000000000000000000000000000000000000000000000000000000000000000000000000000000000000000000000000000000000000000000000000000003600002,
  0x10000000000000000000000000000000000000000000000000000000000000000000000000000000000000000000000000000000000000000000000000003200002,
  0x100000000000000000000000000000000000000000000000000000000000000000000000000000000000000000000000000000000000000000002e00002,
  0x1000000000000000000000000000000000000000000000000000000000000000000000000000000000000000000000000000000000002a00002,
  0x10000000000000000000000000000000000000000000000000000000000000000000000000000000000000000000000000002600002,
  0x100000000000000000000000000000000000000000000000000000000000000000000000000000000000000000002200002,
  0x1000000000000000000000000000000000000000000000000000000000000000000000000000000000001e00002,
  0x10000000000000000000000000000000000000000000000000000000000000000000000000001a00002,
  0x100000000000000000000000000000000000000000000000000000000000000000001600002,
  0x1000000000000000000000000000000000000000000000000000000000001200002, 0x10000000000000000000000000000000000000000000000000000e00002,
  0x100000000000000000000000000000000000000000000a00002, 0x1000000000000000000000000000000000000600002,
  0x10000000000000000000000000000200002,
  0x1000000000000000000000000000000000000000000000000000000000000000000000000000000000000000000000000000000000000000000000000000000000000000000000000000000000003e00003,
  0x10000000000000000000000000000000000000000000000000000000000000000000000000000000000000000000000000000000000000000000000000000000000000000000000000003a00003,
  0x100000000000000000000000000000000000000000000000000000000000000000000000000000000000000000000000000000000000000000000000000000000000000000003600003,
  0x1000000000000000000000000000000000000000000000000000000000000000000000000000000000000000000000000000000000000000000000000000000000003200003,
  0x10000000000000000000000000000000000000000000000000000000000000000000000000000000000000000000000000000000000000000000000000002e00003,
  0x100000000000000000000000000000000000000000000000000000000000000000000000000000000000000000000000000000000000000000002a00003,
  0x1000000000000000000000000000000000000000000000000000000000000000000000000000000000000000000000000000000000002600003,
  0x10000000000000000000000000000000000000000000000000000000000000000000000000000000000000000000000000002200003,
  0x100000000000000000000000000000000000000000000000000000000000000000000000000000000000000000001e00003,
  0x1000000000000000000000000000000000000000000000000000000000000000000000000000000000001a00003,
  0x10000000000000000000000000000000000000000000000000000000000000000000000000001600003,
  0x100000000000000000000000000000000000000000000000000000000000000000001200003,
  0x1000000000000000000000000000000000000000000000000000000000000e00003, 0x10000000000000000000000000000000000000000000000000000a00003,
  0x100000000000000000000000000000000000000000000600003, 0x1000000000000000000000000000000000000200003,
  0x100000000000000000000000000000000000000000000000000000000000000000000000000000000000000000000000000000000000000000000000000000000000000000000000000000000000000000003e00004,
  0x1000000000000000000000000000000000000000000000000000000000000000000000000000000000000000000000000000000000000000000000000000000000000000000000000000000000003a00004,
  0x10000000000000000000000000000000000000000000000000000000000000000000000000000000000000000000000000000000000000000000000000000000000000000000000000003600004,
  0x100000000000000000000000000000000000000000000000000000000000000000000000000000000000000000000000000000000000000000000000000000000000000000003200004,
  0x1000000000000000000000000000000000000000000000000000000000000000000000000000000000000000000000000000000000000000000000000000000000002e00004,
  0x10000000000000000000000000000000000000000000000000000000000000000000000000000000000000000000000000000000000000000000000000002a00004,
  0x100000000000000000000000000000000000000000000000000000000000000000000000000000000000000000000000000000000000000000002600004,
  0x1000000000000000000000000000000000000000000000000000000000000000000000000000000000000000000000000000000000002200004,
  0x10000000000000000000000000000000000000000000000000000000000000000000000000000000000000000000000000001e00004,
  0x100000000000000000000000000000000000000000000000000000000000000000000000000000000000000000001a00004,
  0x1000000000000000000000000000000000000000000000000000000000000000000000000000000000001600004,
  0x10000000000000000000000000000000000000000000000000000000000000000000000000001200004,
  0x100000000000000000000000000000000000000000000000000000000000000000000e00004,
  0x1000000000000000000000000000000000000000000000000000000000000a00004, 0x10000000000000000000000000000000000000000000000000000600004,
  0x100000000000000000000000000000000000000000000200004,
  0x10000000000000000000000000000000000000000000000000000000000000000000000000000000000000000000000000000000000000000000000000000000000000000000000000000000000000000000000000003e00005,
  0x100000000000000000000000000000000000000000000000000000000000000000000000000000000000000000000000000000000000000000000000000000000000000000000000000000000000000000003a00005,
  0x1000000000000000000000000000000000000000000000000000000000000000000000000000000000000000000000000000000000000000000000000000000000000000000000000000000000003600005,
  0x10000000000000000000000000000000000000000000000000000000000000000000000000000000000000000000000000000000000000000000000000000000000000000000000000003200005,
  0x100000000000000000000000000000000000000000000000000000000000000000000000000000000000000000000000000000000000000000000000000000000000000000002e00005,
  0x1000000000000000000000000000000000000000000000000000000000000000000000000000000000000000000000000000000000000000000000000000000000002a00005,
  0x10000000000000000000000000000000000000000000000000000000000000000000000000000000000000000000000000000000000000000000000000002600005,
  0x100000000000000000000000000000000000000000000000000000000000000000000000000000000000000000000000000000000000000000002200005,
  0x1000000000000000000000000000000000000000000000000000000000000000000000000000000000000000000000000000000000001e00005,
  0x10000000000000000000000000000000000000000000000000000000000000000000000000000000000000000000000000001a00005,
  0x100000000000000000000000000000000000000000000000000000000000000000000000000000000000000000001600005,
  0x1000000000000000000000000000000000000000000000000000000000000000000000000000000000001200005,
  0x10000000000000000000000000000000000000000000000000000000000000000000000000000e00005,
  0x100000000000000000000000000000000000000000000000000000000000000000000a00005,
  0x1000000000000000000000000000000000000000000000000000000000000600005, 0x10000000000000000000000000000000000000000000000000000200005,
  0x1000000000000000000000000000000000000000000000000000000000000000000000000000000000000000000000000000000000000000000000000000000000000000000000000000000000000000000000000000000000003e00006,
  0x10000000000000000000000000000000000000000000000000000000000000000000000000000000000000000000000000000000000000000000000000000000000000000000000000000000000000000000000000003a00006,
  0x100000000000000000000000000000000000000000000000000000000000000000000000000000000000000000000000000000000000000000000000000000000000000000000000000000000000000000003600006,
  0x1000000000000000000000000000000000000000000000000000000000000000000000000000000000000000000000000000000000000000000000000000000000000000000000000000000000003200006,
  0x10000000000000000000000000000000000000000000000000000000000000000000000000000000000000000000000000000000000000000000000000000000000000000000000000002e00006,
  0x100000000000000000000000000000000000000000000000000000000000000000000000000000000000000000000000000000000000000000000000000000000000000000002a00006,
  0x1000000000000000000000000000000000000000000000000000000000000000000000000000000000000000000000000000000000000000000000000000000000002600006,
  0x10000000000000000000000000000000000000000000000000000000000000000000000000000000000000000000000000000000000000000000000000002200006,
  0x100000000000000000000000000000000000000000000000000000000000000000000000000000000000000000000000000000000000000000001e00006,
  0x1000000000000000000000000000000000000000000000000000000000000000000000000000000000000000000000000000000000001a00006,
  0x10000000000000000000000000000000000000000000000000000000000000000000000000000000000000000000000000001600006,
  0x100000000000000000000000000000000000000000000000000000000000000000000000000000000000000000001200006,
  0x1000000000000000000000000000000000000000000000000000000000000000000000000000000000000e00006,
  0x10000000000000000000000000000000000000000000000000000000000000000000000000000a00006,
  0x100000000000000000000000000000000000000000000000000000000000000000000600006,
  0x1000000000000000000000000000000000000000000000000000000000000200006,
  0x100000000000000000000000000000000000000000000000000000000000000000000000000000000000000000000000000000000000000000000000000000000000000000000000000000000000000000000000000000000000000000003e00007,
  0x1000000000000000000000000000000000000000000000000000000000000000000000000000000000000000000000000000000000000000000000000000000000000000000000000000000000000000000000000000000000003a00007,
  0x10000000000000000000000000000000000000000000000000000000000000000000000000000000000000000000000000000000000000000000000000000000000000000000000000000000000000000000000000003600007,
  0x100000000000000000000000000000000000000000000000000000000000000000000000000000000000000000000000000000000000000000000000000000000000000000000000000000000000000000003200007,
  0x1000000000000000000000000000000000000000000000000000000000000000000000000000000000000000000000000000000000000000000000000000000000000000000000000000000000002e00007,
  0x10000000000000000000000000000000000000000000000000000000000000000000000000000000000000000000000000000000000000000000000000000000000000000000000000002a00007,
  0x100000000000000000000000000000000000000000000000000000000000000000000000000000000000000000000000000000000000000000000000000000000000000000002600007,
  0x1000000000000000000000000000000000000000000000000000000000000000000000000000000000000000000000000000000000000000000000000000000000002200007,
  0x10000000000000000000000000000000000000000000000000000000000000000000000000000000000000000000000000000000000000000000000000001e00007,
  0x100000000000000000000000000000000000000000000000000000000000000000000000000000000000000000000000000000000000000000001a00007,
  0x1000000000000000000000000000000000000000000000000000000000000000000000000000000000000000000000000000000000001600007,
  0x10000000000000000000000000000000000000000000000000000000000000000000000000000000000000000000000000001200007,
  0x100000000000000000000000000000000000000000000000000000000000000000000000000000000000000000000e00007,
  0x1000000000000000000000000000000000000000000000000000000000000000000000000000000000000a00007,
  0x10000000000000000000000000000000000000000000000000000000000000000000000000000600007,
  0x100000000000000000000000000000000000000000000000000000000000000000000200007,
  0x10000000000000000000000000000000000000000000000000000000000000000000000000000000000000000000000000000000000000000000000000000000000000000000000000000000000000000000000000000000000000000000000000003e00008,
  0x100000000000000000000000000000000000000000000000000000000000000000000000000000000000000000000000000000000000000000000000000000000000000000000000000000000000000000000000000000000000000000003a00008,
  0x1000000000000000000000000000000000000000000000000000000000000000000000000000000000000000000000000000000000000000000000000000000000000000000000000000000000000000000000000000000000003600008,
  0x10000000000000000000000000000000000000000000000000000000000000000000000000000000000000000000000000000000000000000000000000000000000000000000000000000000000000000000000000003200008,
  0x100000000000000000000000000000000000000000000000000000000000000000000000000000000000000000000000000000000000000000000000000000000000000000000000000000000000000000002e00008,
  0x1000000000000000000000000000000000000000000000000000000000000000000000000000000000000000000000000000000000000000000000000000000000000000000000000000000000002a00008,
  0x10000000000000000000000000000000000000000000000000000000000000000000000000000000000000000000000000000000000000000000000000000000000000000000000000002600008,
  0x100000000000000000000000000000000000000000000000000000000000000000000000000000000000000000000000000000000000000000000000000000000000000000002200008,
  0x1000000000000000000000000000000000000000000000000000000000000000000000000000000000000000000000000000000000000000000000000000000000001e00008,
  0x10000000000000000000000000000000000000000000000000000000000000000000000000000000000000000000000000000000000000000000000000001a00008,
  0x100000000000000000000000000000000000000000000000000000000000000000000000000000000000000000000000000000000000000000001600008,
  0x1000000000000000000000000000000000000000000000000000000000000000000000000000000000000000000000000000000000001200008,
  0x10000000000000000000000000000000000000000000000000000000000000000000000000000000000000000000000000000e00008,
  0x100000000000000000000000000000000000000000000000000000000000000000000000000000000000000000000a00008,
  0x1000000000000000000000000000000000000000000000000000000000000000000000000000000000000600008,
  0x10000000000000000000000000000000000000000000000000000000000000000000000000000200008,
  0x1000000000000000000000000000000000000000000000000000000000000000000000000000000000000000000000000000000000000000000000000000000000000000000000000000000000000000000000000000000000000000000000000000000000003e00009,
  0x10000000000000000000000000000000000000000000000000000000000000000000000000000000000000000000000000000000000000000000000000000000000000000000000000000000000000000000000000000000000000000000000000003a00009,
  0x100000000000000000000000000000000000000000000000000000000000000000000000000000000000000000000000000000000000000000000000000000000000000000000000000000000000000000000000000000000000000000003600009,
  0x1000000000000000000000000000000000000000000000000000000000000000000000000000000000000000000000000000000000000000000000000000000000000000000000000000000000000000000000000000000000003200009,
  0x10000000000000000000000000000000000000000000000000000000000000000000000000000000000000000000000000000000000000000000000000000000000000000000000000000000000000000000000000002e00009,
  0x100000000000000000000000000000000000000000000000000000000000000000000000000000000000000000000000000000000000000000000000000000000000000000000000000000000000000000002a00009,
  0x1000000000000000000000000000000000000000000000000000000000000000000000000000000000000000000000000000000000000000000000000000000000000000000000000000000000002600009,
  0x10000000000000000000000000000000000000000000000000000000000000000000000000000000000000000000000000000000000000000000000000000000000000000000000000002200009,
  0x100000000000000000000000000000000000000000000000000000000000000000000000000000000000000000000000000000000000000000000000000000000000000000001e00009,
  0x1000000000000000000000000000000000000000000000000000000000000000000000000000000000000000000000000000000000000000000000000000000000001a00009,
  0x10000000000000000000000000000000000000000000000000000000000000000000000000000000000000000000000000000000000000000000000000001600009,
  0x100000000000000000000000000000000000000000000000000000000000000000000000000000000000000000000000000000000000000000001200009,
  0x1000000000000000000000000000000000000000000000000000000000000000000000000000000000000000000000000000000000000e00009,
  0x10000000000000000000000000000000000000000000000000000000000000000000000000000000000000000000000000000a00009,
  0x100000000000000000000000000000000000000000000000000000000000000000000000000000000000000000000600009,
  0x1000000000000000000000000000000000000000000000000000000000000000000000000000000000000200009,
  0x100000000000000000000000000000000000000000000000000000000000000000000000000000000000000000000000000000000000000000000000000000000000000000000000000000000000000000000000000000000000000000000000000000000000000000003e0000a,
  0x1000000000000000000000000000000000000000000000000000000000000000000000000000000000000000000000000000000000000000000000000000000000000000000000000000000000000000000000000000000000000000000000000000000000003a0000a,
  0x1000000000000000000000000000000000000000000000000000000000000000000000000000000000000000000000000000000000000000000000000000000000000000000000000000000000000000000000000000000000000000000000000000360000a,
  0x10000000000000000000000000000000000000000000000000000000000000000000000000000000000000000000000000000000000000000000000000000000000000000000000000000000000000000000000000000000000000000000320000a,
  0x1000000000000000000000000000000000000000000000000000000000000000000000000000000000000000000000000000000000000000000000000000000000000000000000000000000000000000000000000000000000002e0000a,
  0x10000000000000000000000000000000000000000000000000000000000000000000000000000000000000000000000000000000000000000000000000000000000000000000000000000000000000000000000000002a0000a,
  0x10000000000000000000000000000000000000000000000000000000000000000000000000000000000000000000000000000000000000000000000000000000000000000000000000000000000000000000260000a,
  0x100000000000000000000000000000000000000000000000000000000000000000000000000000000000000000000000000000000000000000000000000000000000000000000000000000000000220000a,
  0x10000000000000000000000000000000000000000000000000000000000000000000000000000000000000000000000000000000000000000000000000000000000000000000000000001e0000a,
  0x100000000000000000000000000000000000000000000000000000000000000000000000000000000000000000000000000000000000000000000000000000000000000000001a0000a,
  0x100000000000000000000000000000000000000000000000000000000000000000000000000000000000000000000000000000000000000000000000000000000000160000a,
  0x1000000000000000000000000000000000000000000000000000000000000000000000000000000000000000000000000000000000000000000000000000120000a,
  0x100000000000000000000000000000000000000000000000000000000000000000000000000000000000000000000000000000000000000000000e0000a,
  0x1000000000000000000000000000000000000000000000000000000000000000000000000000000000000000000000000000000000000a0000a,
  0x1000000000000000000000000000000000000000000000000000000000000000000000000000000000000000000000000000060000a,
  0x10000000000000000000000000000000000000000000000000000000000000000000000000000000000000000000020000a,
  0x10000000000000000000000000000000000000000000000000000000000000000000000000000000000000000000000000000000000000000000000000000000000000000000000000000000000000000000000000000000000000000000000000000000000000000000000000003e0000b,
  0x100000000000000000000000000000000000000000000000000000000000000000000000000000000000000000000000000000000000000000000000000000000000000000000000000000000000000000000000000000000000000000000000000000000000000000003a0000b,
  0x100000000000000000000000000000000000000000000000000000000000000000000000000000000000000000000000000000000000000000000000000000000000000000000000000000000000000000000000000000000000000000000000000000000000360000b,
  0x1000000000000000000000000000000000000000000000000000000000000000000000000000000000000000000000000000000000000000000000000000000000000000000000000000000000000000000000000000000000000000000000000000320000b,
  0x100000000000000000000000000000000000000000000000000000000000000000000000000000000000000000000000000000000000000000000000000000000000000000000000000000000000000000000000000000000000000000002e0000b,
  0x1000000000000000000000000000000000000000000000000000000000000000000000000000000000000000000000000000000000000000000000000000000000000000000000000000000000000000000000000000000000002a0000b,
  0x1000000000000000000000000000000000000000000000000000000000000000000000000000000000000000000000000000000000000000000000000000000000000000000000000000000000000000000000000000260000b,
  0x10000000000000000000000000000000000000000000000000000000000000000000000000000000000000000000000000000000000000000000000000000000000000000000000000000000000000000000220000b,
  0x1000000000000000000000000000000000000000000000000000000000000000000000000000000000000000000000000000000000000000000000000000000000000000000000000000000000001e0000b,
  0x10000000000000000000000000000000000000000000000000000000000000000000000000000000000000000000000000000000000000000000000000000000000000000000000000001a0000b,
  0x10000000000000000000000000000000000000000000000000000000000000000000000000000000000000000000000000000000000000000000000000000000000000000000160000b,
  0x100000000000000000000000000000000000000000000000000000000000000000000000000000000000000000000000000000000000000000000000000000000000120000b,
  0x10000000000000000000000000000000000000000000000000000000000000000000000000000000000000000000000000000000000000000000000000000e0000b,
  0x100000000000000000000000000000000000000000000000000000000000000000000000000000000000000000000000000000000000000000000a0000b,
  0x100000000000000000000000000000000000000000000000000000000000000000000000000000000000000000000000000000000000060000b,
  0x1000000000000000000000000000000000000000000000000000000000000000000000000000000000000000000000000000020000b,
  0x1000000000000000000000000000000000000000000000000000000000000000000000000000000000000000000000000000000000000000000000000000000000000000000000000000000000000000000000000000000000000000000000000000000000000000000000000000000000003e0000c,
  0x10000000000000000000000000000000000000000000000000000000000000000000000000000000000000000000000000000000000000000000000000000000000000000000000000000000000000000000000000000000000000000000000000000000000000000000000000003a0000c,
  0x10000000000000000000000000000000000000000000000000000000000000000000000000000000000000000000000000000000000000000000000000000000000000000000000000000000000000000000000000000000000000000000000000000000000000000000360000c,
  0x100000000000000000000000000000000000000000000000000000000000000000000000000000000000000000000000000000000000000000000000000000000000000000000000000000000000000000000000000000000000000000000000000000000000320000c,
  0x10000000000000000000000000000000000000000000000000000000000000000000000000000000000000000000000000000000000000000000000000000000000000000000000000000000000000000000000000000000000000000000000000002e0000c,
  0x100000000000000000000000000000000000000000000000000000000000000000000000000000000000000000000000000000000000000000000000000000000000000000000000000000000000000000000000000000000000000000002a0000c,
  0x100000000000000000000000000000000000000000000000000000000000000000000000000000000000000000000000000000000000000000000000000000000000000000000000000000000000000000000000000000000000260000c,
  0x1000000000000000000000000000000000000000000000000000000000000000000000000000000000000000000000000000000000000000000000000000000000000000000000000000000000000000000000000000220000c,
  0x100000000000000000000000000000000000000000000000000000000000000000000000000000000000000000000000000000000000000000000000000000000000000000000000000000000000000000001e0000c,
  0x1000000000000000000000000000000000000000000000000000000000000000000000000000000000000000000000000000000000000000000000000000000000000000000000000000000000001a0000c,
  0x1000000000000000000000000000000000000000000000000000000000000000000000000000000000000000000000000000000000000000000000000000000000000000000000000000160000c,
  0x10000000000000000000000000000000000000000000000000000000000000000000000000000000000000000000000000000000000000000000000000000000000000000000120000c,
  0x1000000000000000000000000000000000000000000000000000000000000000000000000000000000000000000000000000000000000000000000000000000000000e0000c,
  0x10000000000000000000000000000000000000000000000000000000000000000000000000000000000000000000000000000000000000000000000000000a0000c,
  0x10000000000000000000000000000000000000000000000000000000000000000000000000000000000000000000000000000000000000000000060000c,
  0x100000000000000000000000000000000000000000000000000000000000000000000000000000000000000000000000000000000000020000c,
  0x100000000000000000000000000000000000000000000000000000000000000000000000000000000000000000000000000000000000000000000000000000000000000000000000000000000000000000000000000000000000000000000000000000000000000000000000000000000000000000003e0000d,
  0x1000000000000000000000000000000000000000000000000000000000000000000000000000000000000000000000000000000000000000000000000000000000000000000000000000000000000000000000000000000000000000000000000000000000000000000000000000000000003a0000d,
  0x1000000000000000000000000000000000000000000000000000000000000000000000000000000000000000000000000000000000000000000000000000000000000000000000000000000000000000000000000000000000000000000000000000000000000000000000000000360000d,
  0x10000000000000000000000000000000000000000000000000000000000000000000000000000000000000000000000000000000000000000000000000000000000000000000000000000000000000000000000000000000000000000000000000000000000000000000320000d,
  0x1000000000000000000000000000000000000000000000000000000000000000000000000000000000000000000000000000000000000000000000000000000000000000000000000000000000000000000000000000000000000000000000000000000000002e0000d,
  0x10000000000000000000000000000000000000000000000000000000000000000000000000000000000000000000000000000000000000000000000000000000000000000000000000000000000000000000000000000000000000000000000000002a0000d,
  0x10000000000000000000000000000000000000000000000000000000000000000000000000000000000000000000000000000000000000000000000000000000000000000000000000000000000000000000000000000000000000000000260000d,
  0x100000000000000000000000000000000000000000000000000000000000000000000000000000000000000000000000000000000000000000000000000000000000000000000000000000000000000000000000000000000000220000d,
  0x10000000000000000000000000000000000000000000000000000000000000000000000000000000000000000000000000000000000000000000000000000000000000000000000000000000000000000000000000001e0000d,
  0x100000000000000000000000000000000000000000000000000000000000000000000000000000000000000000000000000000000000000000000000000000000000000000000000000000000000000000001a0000d,
  0x100000000000000000000000000000000000000000000000000000000000000000000000000000000000000000000000000000000000000000000000000000000000000000000000000000000000160000d,
  0x1000000000000000000000000000000000000000000000000000000000000000000000000000000000000000000000000000000000000000000000000000000000000000000000000000120000d,
  0x100000000000000000000000000000000000000000000000000000000000000000000000000000000000000000000000000000000000000000000000000000000000000000000e0000d,
  0x1000000000000000000000000000000000000000000000000000000000000000000000000000000000000000000000000000000000000000000000000000000000000a0000d,
  0x1000000000000000000000000000000000000000000000000000000000000000000000000000000000000000000000000000000000000000000000000000060000d,
  0x10000000000000000000000000000000000000000000000000000000000000000000000000000000000000000000000000000000000000000000020000d,
  0x10000000000000000000000000000000000000000000000000000000000000000000000000000000000000000000000000000000000000000000000000000000000000000000000000000000000000000000000000000000000000000000000000000000000000000000000000000000000000000000000000003e0000e,
  0x100000000000000000000000000000000000000000000000000000000000000000000000000000000000000000000000000000000000000000000000000000000000000000000000000000000000000000000000000000000000000000000000000000000000000000000000000000000000000000003a0000e,
  0x100000000000000000000000000000000000000000000000000000000000000000000000000000000000000000000000000000000000000000000000000000000000000000000000000000000000000000000000000000000000000000000000000000000000000000000000000000000000360000e,
  0x1000000000000000000000000000000000000000000000000000000000000000000000000000000000000000000000000000000000000000000000000000000000000000000000000000000000000000000000000000000000000000000000000000000000000000000000000000320000e,
  0x100000000000000000000000000000000000000000000000000000000000000000000000000000000000000000000000000000000000000000000000000000000000000000000000000000000000000000000000000000000000000000000000000000000000000000002e0000e,
  0x1000000000000000000000000000000000000000000000000000000000000000000000000000000000000000000000000000000000000000000000000000000000000000000000000000000000000000000000000000000000000000000000000000000000002a0000e,
  0x1000000000000000000000000000000000000000000000000000000000000000000000000000000000000000000000000000000000000000000000000000000000000000000000000000000000000000000000000000000000000000000000000000260000e,
  0x10000000000000000000000000000000000000000000000000000000000000000000000000000000000000000000000000000000000000000000000000000000000000000000000000000000000000000000000000000000000000000000220000e,
  0x1000000000000000000000000000000000000000000000000000000000000000000000000000000000000000000000000000000000000000000000000000000000000000000000000000000000000000000000000000000000001e0000e,
  0x10000000000000000000000000000000000000000000000000000000000000000000000000000000000000000000000000000000000000000000000000000000000000000000000000000000000000000000000000001a0000e,
  0x10000000000000000000000000000000000000000000000000000000000000000000000000000000000000000000000000000000000000000000000000000000000000000000000000000000000000000000160000e,
  0x100000000000000000000000000000000000000000000000000000000000000000000000000000000000000000000000000000000000000000000000000000000000000000000000000000000000120000e,
  0x10000000000000000000000000000000000000000000000000000000000000000000000000000000000000000000000000000000000000000000000000000000000000000000000000000e0000e,
  0x100000000000000000000000000000000000000000000000000000000000000000000000000000000000000000000000000000000000000000000000000000000000000000000a0000e,
  0x100000000000000000000000000000000000000000000000000000000000000000000000000000000000000000000000000000000000000000000000000000000000060000e,
  0x1000000000000000000000000000000000000000000000000000000000000000000000000000000000000000000000000000000000000000000000000000020000e,
  0x10000000000000000000000000000000000000000000000000000000000000000000000000000000000000000000000000000000000000000000000000003e0000f,
  0x100000000000000000000000000000000000000000000000000000000000000000000000000000000000000000000000000000000000000000003a0000f,
  0x100000000000000000000000000000000000000000000000000000000000000000000000000000000000000000000000000000000000360000f,
  0x1000000000000000000000000000000000000000000000000000000000000000000000000000000000000000000000000000320000f,
  0x100000000000000000000000000000000000000000000000000000000000000000000000000000000000000000002e0000f,
  0x1000000000000000000000000000000000000000000000000000000000000000000000000000000000002a0000f,
  0x1000000000000000000000000000000000000000000000000000000000000000000000000000260000f,
  0x10000000000000000000000000000000000000000000000000000000000000000000220000f,
  0x1000000000000000000000000000000000000000000000000000000000001e0000f, 0x10000000000000000000000000000000000000000000000000001a0000f,
  0x10000000000000000000000000000000000000000000160000f, 0x100000000000000000000000000000000000120000f,
  0x10000000000000000000000000000e0000f, 0x100000000000000000000a0000f, 0x100000000000060000f, 0x1000020000f,
  0x10000000000000000000000000000000000000000000000000000000000000000000000000000000000000000000000000000000000000000000000000000000010,
  0x100000000000000000000000000000000000000000000000000000000000000000000000000000000000000000000000000000000000000000000000011,
  0x1000000000000000000000000000000000000000000000000000000000000000000000000000000000000000000000000000000000000000012,
  0x10000000000000000000000000000000000000000000000000000000000000000000000000000000000000000000000000000000013,
  0x100000000000000000000000000000000000000000000000000000000000000000000000000000000000000000000000014,
  0x1000000000000000000000000000000000000000000000000000000000000000000000000000000000000000015,
  0x10000000000000000000000000000000000000000000000000000000000000000000000000000000016,
  0x100000000000000000000000000000000000000000000000000000000000000000000000017,
  0x1000000000000000000000000000000000000000000000000000000000000000018, 0x10000000000000000000000000000000000000000000000000000000019,
  0x10000000000000000000000000000000000000000000000001a, 0x100000000000000000000000000000000000000001b,
  0x1000000000000000000000000000000001c, 0x10000000000000000000000001d, 0x100000000000000001e, 0x1000000001f, 0x1000000000000000020,
  0x100000000000000000000000021, 0x10000000000000000000000000000000022, 0x1000000000000000000000000000000000000000023,
  0x100000000000000000000000000000000000000000000000024, 0x10000000000000000000000000000000000000000000000000000000025,
  0x1000000000000000000000000000000000000000000000000000000000000000026,
  0x100000000000000000000000000000000000000000000000000000000000000000000000027,
  0x10000000000000000000000000000000000000000000000000000000000000000000000000000000028,
  0x1000000000000000000000000000000000000000000000000000000000000000000000000000000000000000029,
  0x10000000000000000000000000000000000000000000000000000000000000000000000000000000000000000000000002a,
  0x1000000000000000000000000000000000000000000000000000000000000000000000000000000000000000000000000000000002b,
  0x100000000000000000000000000000000000000000000000000000000000000000000000000000000000000000000000000000000000000002c,
  0x10000000000000000000000000000000000000000000000000000000000000000000000000000000000000000000000000000000000000000000000002d,
  0x1000000000000000000000000000000000000000000000000000000000000000000000000000000000000000000000000000000000000000000000000000000002e,
  0x100000000000000000000000000000000000000000000000000000000000000000000000000000000000000000000000000000000000000000000000000000000000000002f,
  0x10000000000000000000000000000000000000000000000000000000000000000000000000000000000000000000000000000000000000000000000000000000031,
  0x10000000032, 0x10000050033, 0x10000000033, 0x1000000000000000034, 0x100000000000000000000000035, 0x10000000000000000000000000000000036,
  0x1000000000000000000000000000000000000000037, 0x100000000000000000000000000000000000000000000000038,
  0x10000000000000000000000000000000000000000000000000000000039, 0x100000000000000000000000000000000000000000000000000000000000000003a,
  0x10000000000000000000000000000000000000000000000000000000000000000000000003b,
  0x1000000000000000000000000000000000000000000000000000000000000000000000000000000003c,
  0x100000000000000000000000000000000000000000000000000000000000000000000000000000000000000003d,
  0x10000000000000000000000000000000000000000000000000000000000000000000000000000000000000000000000003e,
  0x1000000000000000000000000000000000000000000000000000000000000000000000000000000000000000000000000000000003f,
  0x1000000000000000000000000000000000000000000000000000000000000000000000000000000000000000000000000000000000000000040,
  0x100000000000000000000000000000000000000000000000000000000000000000000000000000000000000000000000000000000000000000000000041,
  0x10000000000000000000000000000000000000000000000000000000000000000000000000000000000000000000000000000000000000000000000000000000042,
  0x1000000000000000000000000000000000000000000000000000000000000000000000000000000000000000000000000000000000000000000000000000000000000000043,
  0x1000000000000000000000000000000000000000000000000000000000000000000000000000000000000000000000000000000000000000000000000000000000000000044,
  0x10000000000000000000000000000000000000000000000000000000000000000000000000000000000000000000000000000000000000000000000000000000045,
  0x100000000000000000000000000000000000000000000000000000000000000000000000000000000000000000000000000000000000000000000000046,
  0x1000000000000000000000000000000000000000000000000000000000000000000000000000000000000000000000000000000000000000047,
  0x10000000000000000000000000000000000000000000000000000000000000000000000000000000000000000000000000000000048,
  0x100000000000000000000000000000000000000000000000000000000000000000000000000000000000000000000000049,
  0x100000000000000000000000000000000000000000000000000000000000000000000000000000000000000004a,
  0x1000000000000000000000000000000000000000000000000000000000000000000000000000000004b,
  0x10000000000000000000000000000000000000000000000000000000000000000000000004c,
  0x100000000000000000000000000000000000000000000000000000000000000004d, 0x1000000000000000000000000000000000000000000000000000000004e,
  0x10000000000000000000000000000000000000000000000004f, 0x1000000000000000000000000000000000000000050,
  0x10000000000000000000000000000000051, 0x100000000000000000000000052, 0x1000000000000000053, 0x100000000000000000000000054,
  0x10000000000000000000000000000000055, 0x1000000000000000000000000000000000000000056,
  0x100000000000000000000000000000000000000000000000057, 0x10000000000000000000000000000000000000000000000000000000058,
  0x1000000000000000000000000000000000000000000000000000000000000000059,
  0x10000000000000000000000000000000000000000000000000000000000000000000000005a,
  0x1000000000000000000000000000000000000000000000000000000000000000000000000000000005b,
  0x100000000000000000000000000000000000000000000000000000000000000000000000000000000000000005c,
  0x10000000000000000000000000000000000000000000000000000000000000000000000000000000000000000000000005d,
  0x1000000000000000000000000000000000000000000000000000000000000000000000000000000000000000000000000000000005e,
  0x100000000000000000000000000000000000000000000000000000000000000000000000000000000000000000000000000000000000000005f,
  0x100000000000000000000000000000000000000000000000000000000000000000000000000000000000000000000000000000000000000000000000060,
  0x10000000000000000000000000000000000000000000000000000000000000000000000000000000000000000000000000000000000000000000000000000000061,
  0x1000000000000000000000000000000000000000000000000000000000000000000000000000000000000000000000000000000000000000000000000000000000000000062,
  0x100000000000000000000000000000000000000000000000000000000000000000000000000000000000000000000000000000000000000000000000000000000000000000000000063,
  0x1000000000000000064, 0x100000000000000000000000065, 0x10000000000000000000000000000000066, 0x1000000000000000000000000000000000000000067,
  0x100000000000000000000000000000000000000000000000068, 0x10000000000000000000000000000000000000000000000000000000069,
  0x100000000000000000000000000000000000000000000000000000000000000006a,
  0x10000000000000000000000000000000000000000000000000000000000000000000000006b,
  0x1000000000000000000000000000000000000000000000000000000000000000000000000000000006c,
  0x100000000000000000000000000000000000000000000000000000000000000000000000000000000000000006d,
  0x10000000000000000000000000000000000000000000000000000000000000000000000000000000000000000000000006e,
  0x1000000000000000000000000000000000000000000000000000000000000000000000000000000000000000000000000000000006f,
  0x1000000000000000000000000000000000000000000000000000000000000000000000000000000000000000000000000000000000000000070,
  0x100000000000000000000000000000000000000000000000000000000000000000000000000000000000000000000000000000000000000000000000071,
  0x10000000000000000000000000000000000000000000000000000000000000000000000000000000000000000000000000000000000000000000000000000000072,
  0x1000000000000000000000000000000000000000000000000000000000000000000000000000000000000000000000000000000000000000000000000000000000000000073,
  0x100000000000000000000000000000000000000000000000000000000000000000000000000000000000000000000000000000000000000000000000000000000000000000000000074,
  0x1000000000000000000000000000000000000000000000000000000000000000000000000000000000000000000000000000000000000000000000000000000000000000076,
  0x1000000000000000077, 0x1000000000000050078, 0x1000000000000000078, 0x100000000000000000000000079, 0x1000000000000000000000000000000007a,
  0x100000000000000000000000000000000000000007b, 0x10000000000000000000000000000000000000000000000007c,
  0x1000000000000000000000000000000000000000000000000000000007d, 0x100000000000000000000000000000000000000000000000000000000000000007e,
  0x10000000000000000000000000000000000000000000000000000000000000000000000007f,
  0x10000000000000000000000000000000000000000000000000000000000000000000000000000000080,
  0x1000000000000000000000000000000000000000000000000000000000000000000000000000000000000000081,
  0x100000000000000000000000000000000000000000000000000000000000000000000000000000000000000000000000082,
  0x10000000000000000000000000000000000000000000000000000000000000000000000000000000000000000000000000000000083,
  0x1000000000000000000000000000000000000000000000000000000000000000000000000000000000000000000000000000000000000000084,
  0x100000000000000000000000000000000000000000000000000000000000000000000000000000000000000000000000000000000000000000000000085,
  0x10000000000000000000000000000000000000000000000000000000000000000000000000000000000000000000000000000000000000000000000000000000086,
  0x1000000000000000000000000000000000000000000000000000000000000000000000000000000000000000000000000000000000000000000000000000000000000000087,
  0x100000000000000000000000000000000000000000000000000000000000000000000000000000000000000000000000000000000000000000000000000000000000000000000000088,
  0x10000000000000000000000000000000000000000000000000000000000000000000000000000000000000000000000000000000000000000000000000000000000000000000000000000000089,
  0x10000000000000000000000000000000000000000000000000000000000000000000000000000000000000000000000000000000000000000000000000000000000000000000000008a,
  0x100000000000000000000000000000000000000000000000000000000000000000000000000000000000000000000000000000000000000000000000000000000000000008b,
  0x1000000000000000000000000000000000000000000000000000000000000000000000000000000000000000000000000000000000000000000000000000000008c,
  0x10000000000000000000000000000000000000000000000000000000000000000000000000000000000000000000000000000000000000000000000008d,
  0x100000000000000000000000000000000000000000000000000000000000000000000000000000000000000000000000000000000000000008e,
  0x1000000000000000000000000000000000000000000000000000000000000000000000000000000000000000000000000000000008f,
  0x100000000000000000000000000000000000000000000000000000000000000000000000000000000000000000000000090,
  0x1000000000000000000000000000000000000000000000000000000000000000000000000000000000000000091,
  0x10000000000000000000000000000000000000000000000000000000000000000000000000000000092,
  0x100000000000000000000000000000000000000000000000000000000000000000000000093,
  0x1000000000000000000000000000000000000000000000000000000000000000094, 0x10000000000000000000000000000000000000000000000000000000095,
  0x100000000000000000000000000000000000000000000000096, 0x1000000000000000000000000000000000000000097,
  0x10000000000000000000000000000000098, 0x100000000000000000000000099, 0x1000000000000000000000000000000009a,
  0x100000000000000000000000000000000000000009b, 0x10000000000000000000000000000000000000000000000009c,
  0x1000000000000000000000000000000000000000000000000000000009d, 0x100000000000000000000000000000000000000000000000000000000000000009e,
  0x10000000000000000000000000000000000000000000000000000000000000000000000009f,
  0x100000000000000000000000000000000000000000000000000000000000000000000000000000000a0,
  0x10000000000000000000000000000000000000000000000000000000000000000000000000000000000000000a1,
  0x1000000000000000000000000000000000000000000000000000000000000000000000000000000000000000000000000a2,
  0x100000000000000000000000000000000000000000000000000000000000000000000000000000000000000000000000000000000a3,
  0x10000000000000000000000000000000000000000000000000000000000000000000000000000000000000000000000000000000000000000a4,
  0x1000000000000000000000000000000000000000000000000000000000000000000000000000000000000000000000000000000000000000000000000a5,
  0x100000000000000000000000000000000000000000000000000000000000000000000000000000000000000000000000000000000000000000000000000000000a6,
  0x10000000000000000000000000000000000000000000000000000000000000000000000000000000000000000000000000000000000000000000000000000000000000000a7,
  0x1000000000000000000000000000000000000000000000000000000000000000000000000000000000000000000000000000000000000000000000000000000000000000000000000a8,
  0x100000000000000000000000000000000000000000000000000000000000000000000000000000000000000000000000000000000000000000000000000000000000000000000000000000000a9,
  0x1000000000000000000000000aa, 0x100000000000000000000000000000000ab, 0x10000000000000000000000000000000000000000ac,
  0x1000000000000000000000000000000000000000000000000ad, 0x100000000000000000000000000000000000000000000000000000000ae,
  0x10000000000000000000000000000000000000000000000000000000000000000af,
  0x1000000000000000000000000000000000000000000000000000000000000000000000000b0,
  0x100000000000000000000000000000000000000000000000000000000000000000000000000000000b1,
  0x10000000000000000000000000000000000000000000000000000000000000000000000000000000000000000b2,
  0x1000000000000000000000000000000000000000000000000000000000000000000000000000000000000000000000000b3,
  0x100000000000000000000000000000000000000000000000000000000000000000000000000000000000000000000000000000000b4,
  0x10000000000000000000000000000000000000000000000000000000000000000000000000000000000000000000000000000000000000000b5,
  0x1000000000000000000000000000000000000000000000000000000000000000000000000000000000000000000000000000000000000000000000000b6,
  0x100000000000000000000000000000000000000000000000000000000000000000000000000000000000000000000000000000000000000000000000000000000b7,
  0x10000000000000000000000000000000000000000000000000000000000000000000000000000000000000000000000000000000000000000000000000000000000000000b8,
  0x1000000000000000000000000000000000000000000000000000000000000000000000000000000000000000000000000000000000000000000000000000000000000000000000000b9,
  0x100000000000000000000000000000000000000000000000000000000000000000000000000000000000000000000000000000000000000000000000000000000000000000000000000000000ba,
  0x1000000000000000000000000000000000000000000000000000000000000000000000000000000000000000000000000000000000000000000000000000000000000000000000000bc,
  0x1000000000000000000000000bd, 0x1000000000000000000000500be, 0x1000000000000000000000000be, 0x100000000000000000000000000000000bf,
  0x10000000000000000000000000000000000000000c0, 0x1000000000000000000000000000000000000000000000000c1,
  0x100000000000000000000000000000000000000000000000000000000c2, 0x10000000000000000000000000000000000000000000000000000000000000000c3,
  0x1000000000000000000000000000000000000000000000000000000000000000000000000c4,
  0x100000000000000000000000000000000000000000000000000000000000000000000000000000000c5,
  0x10000000000000000000000000000000000000000000000000000000000000000000000000000000000000000c6,
  0x1000000000000000000000000000000000000000000000000000000000000000000000000000000000000000000000000c7,
  0x100000000000000000000000000000000000000000000000000000000000000000000000000000000000000000000000000000000c8,
  0x10000000000000000000000000000000000000000000000000000000000000000000000000000000000000000000000000000000000000000c9,
  0x1000000000000000000000000000000000000000000000000000000000000000000000000000000000000000000000000000000000000000000000000ca,
  0x100000000000000000000000000000000000000000000000000000000000000000000000000000000000000000000000000000000000000000000000000000000cb,
  0x10000000000000000000000000000000000000000000000000000000000000000000000000000000000000000000000000000000000000000000000000000000000000000cc,
  0x1000000000000000000000000000000000000000000000000000000000000000000000000000000000000000000000000000000000000000000000000000000000000000000000000cd,
  0x100000000000000000000000000000000000000000000000000000000000000000000000000000000000000000000000000000000000000000000000000000000000000000000000000000000ce,
  0x10000000000000000000000000000000000000000000000000000000000000000000000000000000000000000000000000000000000000000000000000000000000000000000000000000000000000000cf,
  0x100000000000000000000000000000000000000000000000000000000000000000000000000000000000000000000000000000000000000000000000000000000000000000000000000000000d0,
  0x1000000000000000000000000000000000000000000000000000000000000000000000000000000000000000000000000000000000000000000000000000000000000000000000000d1,
  0x10000000000000000000000000000000000000000000000000000000000000000000000000000000000000000000000000000000000000000000000000000000000000000d2,
  0x100000000000000000000000000000000000000000000000000000000000000000000000000000000000000000000000000000000000000000000000000000000d3,
  0x1000000000000000000000000000000000000000000000000000000000000000000000000000000000000000000000000000000000000000000000000d4,
  0x10000000000000000000000000000000000000000000000000000000000000000000000000000000000000000000000000000000000000000d5,
  0x100000000000000000000000000000000000000000000000000000000000000000000000000000000000000000000000000000000d6,
  0x1000000000000000000000000000000000000000000000000000000000000000000000000000000000000000000000000d7,
  0x10000000000000000000000000000000000000000000000000000000000000000000000000000000000000000d8,
  0x100000000000000000000000000000000000000000000000000000000000000000000000000000000d9,
  0x1000000000000000000000000000000000000000000000000000000000000000000000000da,
  0x10000000000000000000000000000000000000000000000000000000000000000db, 0x100000000000000000000000000000000000000000000000000000000dc,
  0x1000000000000000000000000000000000000000000000000dd, 0x10000000000000000000000000000000000000000de,
  0x100000000000000000000000000000000df, 0x10000000000000000000000000000000000000000e0,
  0x1000000000000000000000000000000000000000000000000e1, 0x100000000000000000000000000000000000000000000000000000000e2,
  0x10000000000000000000000000000000000000000000000000000000000000000e3,
  0x1000000000000000000000000000000000000000000000000000000000000000000000000e4,
  0x100000000000000000000000000000000000000000000000000000000000000000000000000000000e5,
  0x10000000000000000000000000000000000000000000000000000000000000000000000000000000000000000e6,
  0x1000000000000000000000000000000000000000000000000000000000000000000000000000000000000000000000000e7,
  0x100000000000000000000000000000000000000000000000000000000000000000000000000000000000000000000000000000000e8,
  0x10000000000000000000000000000000000000000000000000000000000000000000000000000000000000000000000000000000000000000e9,
  0x1000000000000000000000000000000000000000000000000000000000000000000000000000000000000000000000000000000000000000000000000ea,
  0x100000000000000000000000000000000000000000000000000000000000000000000000000000000000000000000000000000000000000000000000000000000eb,
  0x10000000000000000000000000000000000000000000000000000000000000000000000000000000000000000000000000000000000000000000000000000000000000000ec,
  0x1000000000000000000000000000000000000000000000000000000000000000000000000000000000000000000000000000000000000000000000000000000000000000000000000ed,
  0x100000000000000000000000000000000000000000000000000000000000000000000000000000000000000000000000000000000000000000000000000000000000000000000000000000000ee,
  0x10000000000000000000000000000000000000000000000000000000000000000000000000000000000000000000000000000000000000000000000000000000000000000000000000000000000000000ef,
  0x100000000000000000000000000000000f0, 0x10000000000000000000000000000000000000000f1,
  0x1000000000000000000000000000000000000000000000000f2, 0x100000000000000000000000000000000000000000000000000000000f3,
  0x10000000000000000000000000000000000000000000000000000000000000000f4,
  0x1000000000000000000000000000000000000000000000000000000000000000000000000f5,
  0x100000000000000000000000000000000000000000000000000000000000000000000000000000000f6,
  0x10000000000000000000000000000000000000000000000000000000000000000000000000000000000000000f7,
  0x1000000000000000000000000000000000000000000000000000000000000000000000000000000000000000000000000f8,
  0x100000000000000000000000000000000000000000000000000000000000000000000000000000000000000000000000000000000f9,
  0x10000000000000000000000000000000000000000000000000000000000000000000000000000000000000000000000000000000000000000fa,
  0x1000000000000000000000000000000000000000000000000000000000000000000000000000000000000000000000000000000000000000000000000fb,
  0x100000000000000000000000000000000000000000000000000000000000000000000000000000000000000000000000000000000000000000000000000000000fc,
  0x10000000000000000000000000000000000000000000000000000000000000000000000000000000000000000000000000000000000000000000000000000000000000000fd,
  0x1000000000000000000000000000000000000000000000000000000000000000000000000000000000000000000000000000000000000000000000000000000000000000000000000fe,
  0x100000000000000000000000000000000000000000000000000000000000000000000000000000000000000000000000000000000000000000000000000000000000000000000000000000000ff,
  0x1000000000000000000000000000000000000000000000000000000000000000000000000000000000000000000000000000000000000000000000000000000000000000000000000000000000000000100,
  0x10000000000000000000000000000000000000000000000000000000000000000000000000000000000000000000000000000000000000000000000000000000000000000000000000000000102,
  0x10000000000000000000000000000000103, 0x10000000000000000000000000000050104, 0x10000000000000000000000000000000104,
  0x1000000000000000000000000000000000000000105, 0x100000000000000000000000000000000000000000000000106,
  0x10000000000000000000000000000000000000000000000000000000107, 0x1000000000000000000000000000000000000000000000000000000000000000108,
  0x100000000000000000000000000000000000000000000000000000000000000000000000109,
  0x1000000000000000000000000000000000000000000000000000000000000000000000000000000010a,
  0x100000000000000000000000000000000000000000000000000000000000000000000000000000000000000010b,
  0x10000000000000000000000000000000000000000000000000000000000000000000000000000000000000000000000010c,
  0x1000000000000000000000000000000000000000000000000000000000000000000000000000000000000000000000000000000010d,
  0x100000000000000000000000000000000000000000000000000000000000000000000000000000000000000000000000000000000000000010e,
  0x10000000000000000000000000000000000000000000000000000000000000000000000000000000000000000000000000000000000000000000000010f,
  0x10000000000000000000000000000000000000000000000000000000000000000000000000000000000000000000000000000000000000000000000000000000110,
  0x1000000000000000000000000000000000000000000000000000000000000000000000000000000000000000000000000000000000000000000000000000000000000000111,
  0x100000000000000000000000000000000000000000000000000000000000000000000000000000000000000000000000000000000000000000000000000000000000000000000000112,
  0x10000000000000000000000000000000000000000000000000000000000000000000000000000000000000000000000000000000000000000000000000000000000000000000000000000000113,
  0x1000000000000000000000000000000000000000000000000000000000000000000000000000000000000000000000000000000000000000000000000000000000000000000000000000000000000000114,
  0x100000000000000000000000000000000000000000000000000000000000000000000000000000000000000000000000000000000000000000000000000000000000000000000000000000000000000000000000115,
  0x1000000000000000000000000000000000000000000000000000000000000000000000000000000000000000000000000000000000000000000000000000000000000000000000000000000000000000116,
  0x10000000000000000000000000000000000000000000000000000000000000000000000000000000000000000000000000000000000000000000000000000000000000000000000000000000117,
  0x100000000000000000000000000000000000000000000000000000000000000000000000000000000000000000000000000000000000000000000000000000000000000000000000118,
  0x1000000000000000000000000000000000000000000000000000000000000000000000000000000000000000000000000000000000000000000000000000000000000000119,
  0x1000000000000000000000000000000000000000000000000000000000000000000000000000000000000000000000000000000000000000000000000000000011a,
  0x10000000000000000000000000000000000000000000000000000000000000000000000000000000000000000000000000000000000000000000000011b,
  0x100000000000000000000000000000000000000000000000000000000000000000000000000000000000000000000000000000000000000011c,
  0x1000000000000000000000000000000000000000000000000000000000000000000000000000000000000000000000000000000011d,
  0x10000000000000000000000000000000000000000000000000000000000000000000000000000000000000000000000011e,
  0x100000000000000000000000000000000000000000000000000000000000000000000000000000000000000011f,
  0x10000000000000000000000000000000000000000000000000000000000000000000000000000000120,
  0x100000000000000000000000000000000000000000000000000000000000000000000000121,
  0x1000000000000000000000000000000000000000000000000000000000000000122, 0x10000000000000000000000000000000000000000000000000000000123,
  0x100000000000000000000000000000000000000000000000124, 0x1000000000000000000000000000000000000000125,
  0x100000000000000000000000000000000000000000000000126, 0x10000000000000000000000000000000000000000000000000000000127,
  0x1000000000000000000000000000000000000000000000000000000000000000128,
  0x100000000000000000000000000000000000000000000000000000000000000000000000129,
  0x1000000000000000000000000000000000000000000000000000000000000000000000000000000012a,
  0x100000000000000000000000000000000000000000000000000000000000000000000000000000000000000012b,
  0x10000000000000000000000000000000000000000000000000000000000000000000000000000000000000000000000012c,
  0x1000000000000000000000000000000000000000000000000000000000000000000000000000000000000000000000000000000012d,
  0x100000000000000000000000000000000000000000000000000000000000000000000000000000000000000000000000000000000000000012e,
  0x10000000000000000000000000000000000000000000000000000000000000000000000000000000000000000000000000000000000000000000000012f,
  0x10000000000000000000000000000000000000000000000000000000000000000000000000000000000000000000000000000000000000000000000000000000130,
  0x1000000000000000000000000000000000000000000000000000000000000000000000000000000000000000000000000000000000000000000000000000000000000000131,
  0x100000000000000000000000000000000000000000000000000000000000000000000000000000000000000000000000000000000000000000000000000000000000000000000000132,
  0x10000000000000000000000000000000000000000000000000000000000000000000000000000000000000000000000000000000000000000000000000000000000000000000000000000000133,
  0x1000000000000000000000000000000000000000000000000000000000000000000000000000000000000000000000000000000000000000000000000000000000000000000000000000000000000000134,
  0x100000000000000000000000000000000000000000000000000000000000000000000000000000000000000000000000000000000000000000000000000000000000000000000000000000000000000000000000135,
  0x1000000000000000000000000000000000000000136, 0x100000000000000000000000000000000000000000000000137,
  0x10000000000000000000000000000000000000000000000000000000138, 0x1000000000000000000000000000000000000000000000000000000000000000139,
  0x10000000000000000000000000000000000000000000000000000000000000000000000013a,
  0x1000000000000000000000000000000000000000000000000000000000000000000000000000000013b,
  0x100000000000000000000000000000000000000000000000000000000000000000000000000000000000000013c,
  0x10000000000000000000000000000000000000000000000000000000000000000000000000000000000000000000000013d,
  0x1000000000000000000000000000000000000000000000000000000000000000000000000000000000000000000000000000000013e,
  0x100000000000000000000000000000000000000000000000000000000000000000000000000000000000000000000000000000000000000013f,
  0x100000000000000000000000000000000000000000000000000000000000000000000000000000000000000000000000000000000000000000000000140,
  0x10000000000000000000000000000000000000000000000000000000000000000000000000000000000000000000000000000000000000000000000000000000141,
  0x1000000000000000000000000000000000000000000000000000000000000000000000000000000000000000000000000000000000000000000000000000000000000000142,
  0x100000000000000000000000000000000000000000000000000000000000000000000000000000000000000000000000000000000000000000000000000000000000000000000000143,
  0x10000000000000000000000000000000000000000000000000000000000000000000000000000000000000000000000000000000000000000000000000000000000000000000000000000000144,
  0x1000000000000000000000000000000000000000000000000000000000000000000000000000000000000000000000000000000000000000000000000000000000000000000000000000000000000000145,
  0x100000000000000000000000000000000000000000000000000000000000000000000000000000000000000000000000000000000000000000000000000000000000000000000000000000000000000000000000146,
  0x1000000000000000000000000000000000000000000000000000000000000000000000000000000000000000000000000000000000000000000000000000000000000000000000000000000000000000148,
  0x1000000000000000000000000000000000000000149, 0x100000000000000000000000000000000000005014a,
  0x100000000000000000000000000000000000000014a, 0x10000000000000000000000000000000000000000000000014b,
  0x1000000000000000000000000000000000000000000000000000000014c, 0x100000000000000000000000000000000000000000000000000000000000000014d,
  0x10000000000000000000000000000000000000000000000000000000000000000000000014e,
  0x1000000000000000000000000000000000000000000000000000000000000000000000000000000014f,
  0x1000000000000000000000000000000000000000000000000000000000000000000000000000000000000000150,
  0x100000000000000000000000000000000000000000000000000000000000000000000000000000000000000000000000151,
  0x10000000000000000000000000000000000000000000000000000000000000000000000000000000000000000000000000000000152,
  0x1000000000000000000000000000000000000000000000000000000000000000000000000000000000000000000000000000000000000000153,
  0x100000000000000000000000000000000000000000000000000000000000000000000000000000000000000000000000000000000000000000000000154,
  0x10000000000000000000000000000000000000000000000000000000000000000000000000000000000000000000000000000000000000000000000000000000155,
  0x1000000000000000000000000000000000000000000000000000000000000000000000000000000000000000000000000000000000000000000000000000000000000000156,
  0x100000000000000000000000000000000000000000000000000000000000000000000000000000000000000000000000000000000000000000000000000000000000000000000000157,
  0x10000000000000000000000000000000000000000000000000000000000000000000000000000000000000000000000000000000000000000000000000000000000000000000000000000000158,
  0x1000000000000000000000000000000000000000000000000000000000000000000000000000000000000000000000000000000000000000000000000000000000000000000000000000000000000000159,
  0x10000000000000000000000000000000000000000000000000000000000000000000000000000000000000000000000000000000000000000000000000000000000000000000000000000000000000000000000015a,
  0x1000000000000000000000000000000000000000000000000000000000000000000000000000000000000000000000000000000000000000000000000000000000000000000000000000000000000000000000000000000015b,
  0x10000000000000000000000000000000000000000000000000000000000000000000000000000000000000000000000000000000000000000000000000000000000000000000000000000000000000000000000015c,
  0x100000000000000000000000000000000000000000000000000000000000000000000000000000000000000000000000000000000000000000000000000000000000000000000000000000000000000015d,
  0x1000000000000000000000000000000000000000000000000000000000000000000000000000000000000000000000000000000000000000000000000000000000000000000000000000000015e,
  0x10000000000000000000000000000000000000000000000000000000000000000000000000000000000000000000000000000000000000000000000000000000000000000000000015f,
  0x1000000000000000000000000000000000000000000000000000000000000000000000000000000000000000000000000000000000000000000000000000000000000000160,
  0x10000000000000000000000000000000000000000000000000000000000000000000000000000000000000000000000000000000000000000000000000000000161,
  0x100000000000000000000000000000000000000000000000000000000000000000000000000000000000000000000000000000000000000000000000162,
  0x1000000000000000000000000000000000000000000000000000000000000000000000000000000000000000000000000000000000000000163,
  0x10000000000000000000000000000000000000000000000000000000000000000000000000000000000000000000000000000000164,
  0x100000000000000000000000000000000000000000000000000000000000000000000000000000000000000000000000165,
  0x1000000000000000000000000000000000000000000000000000000000000000000000000000000000000000166,
  0x10000000000000000000000000000000000000000000000000000000000000000000000000000000167,
  0x100000000000000000000000000000000000000000000000000000000000000000000000168,
  0x1000000000000000000000000000000000000000000000000000000000000000169, 0x1000000000000000000000000000000000000000000000000000000016a,
  0x10000000000000000000000000000000000000000000000016b, 0x1000000000000000000000000000000000000000000000000000000016c,
  0x100000000000000000000000000000000000000000000000000000000000000016d,
  0x10000000000000000000000000000000000000000000000000000000000000000000000016e,
  0x1000000000000000000000000000000000000000000000000000000000000000000000000000000016f,
  0x1000000000000000000000000000000000000000000000000000000000000000000000000000000000000000170,
  0x100000000000000000000000000000000000000000000000000000000000000000000000000000000000000000000000171,
  0x10000000000000000000000000000000000000000000000000000000000000000000000000000000000000000000000000000000172,
  0x1000000000000000000000000000000000000000000000000000000000000000000000000000000000000000000000000000000000000000173,
  0x100000000000000000000000000000000000000000000000000000000000000000000000000000000000000000000000000000000000000000000000174,
  0x10000000000000000000000000000000000000000000000000000000000000000000000000000000000000000000000000000000000000000000000000000000175,
  0x1000000000000000000000000000000000000000000000000000000000000000000000000000000000000000000000000000000000000000000000000000000000000000176,
  0x100000000000000000000000000000000000000000000000000000000000000000000000000000000000000000000000000000000000000000000000000000000000000000000000177,
  0x10000000000000000000000000000000000000000000000000000000000000000000000000000000000000000000000000000000000000000000000000000000000000000000000000000000178,
  0x1000000000000000000000000000000000000000000000000000000000000000000000000000000000000000000000000000000000000000000000000000000000000000000000000000000000000000179,
  0x10000000000000000000000000000000000000000000000000000000000000000000000000000000000000000000000000000000000000000000000000000000000000000000000000000000000000000000000017a,
  0x1000000000000000000000000000000000000000000000000000000000000000000000000000000000000000000000000000000000000000000000000000000000000000000000000000000000000000000000000000000017b,
  0x10000000000000000000000000000000000000000000000017c, 0x1000000000000000000000000000000000000000000000000000000017d,
  0x100000000000000000000000000000000000000000000000000000000000000017e,
  0x10000000000000000000000000000000000000000000000000000000000000000000000017f,
  0x10000000000000000000000000000000000000000000000000000000000000000000000000000000180,
  0x1000000000000000000000000000000000000000000000000000000000000000000000000000000000000000181,
  0x100000000000000000000000000000000000000000000000000000000000000000000000000000000000000000000000182,
  0x10000000000000000000000000000000000000000000000000000000000000000000000000000000000000000000000000000000183,
  0x1000000000000000000000000000000000000000000000000000000000000000000000000000000000000000000000000000000000000000184,
  0x100000000000000000000000000000000000000000000000000000000000000000000000000000000000000000000000000000000000000000000000185,
  0x10000000000000000000000000000000000000000000000000000000000000000000000000000000000000000000000000000000000000000000000000000000186,
  0x1000000000000000000000000000000000000000000000000000000000000000000000000000000000000000000000000000000000000000000000000000000000000000187,
  0x100000000000000000000000000000000000000000000000000000000000000000000000000000000000000000000000000000000000000000000000000000000000000000000000188,
  0x10000000000000000000000000000000000000000000000000000000000000000000000000000000000000000000000000000000000000000000000000000000000000000000000000000000189,
  0x100000000000000000000000000000000000000000000000000000000000000000000000000000000000000000000000000000000000000000000000000000000000000000000000000000000000000018a,
  0x10000000000000000000000000000000000000000000000000000000000000000000000000000000000000000000000000000000000000000000000000000000000000000000000000000000000000000000000018b,
  0x1000000000000000000000000000000000000000000000000000000000000000000000000000000000000000000000000000000000000000000000000000000000000000000000000000000000000000000000000000000018c,
  0x10000000000000000000000000000000000000000000000000000000000000000000000000000000000000000000000000000000000000000000000000000000000000000000000000000000000000000000000018e,
  0x10000000000000000000000000000000000000000000000018f, 0x100000000000000000000000000000000000000000000050190,
  0x100000000000000000000000000000000000000000000000190, 0x10000000000000000000000000000000000000000000000000000000191,
  0x1000000000000000000000000000000000000000000000000000000000000000192,
  0x100000000000000000000000000000000000000000000000000000000000000000000000193,
  0x10000000000000000000000000000000000000000000000000000000000000000000000000000000194,
  0x1000000000000000000000000000000000000000000000000000000000000000000000000000000000000000195,
  0x100000000000000000000000000000000000000000000000000000000000000000000000000000000000000000000000196,
  0x10000000000000000000000000000000000000000000000000000000000000000000000000000000000000000000000000000000197,
  0x1000000000000000000000000000000000000000000000000000000000000000000000000000000000000000000000000000000000000000198,
  0x100000000000000000000000000000000000000000000000000000000000000000000000000000000000000000000000000000000000000000000000199,
  0x1000000000000000000000000000000000000000000000000000000000000000000000000000000000000000000000000000000000000000000000000000000019a,
  0x100000000000000000000000000000000000000000000000000000000000000000000000000000000000000000000000000000000000000000000000000000000000000019b,
  0x10000000000000000000000000000000000000000000000000000000000000000000000000000000000000000000000000000000000000000000000000000000000000000000000019c,
  0x1000000000000000000000000000000000000000000000000000000000000000000000000000000000000000000000000000000000000000000000000000000000000000000000000000000019d,
  0x100000000000000000000000000000000000000000000000000000000000000000000000000000000000000000000000000000000000000000000000000000000000000000000000000000000000000019e,
  0x10000000000000000000000000000000000000000000000000000000000000000000000000000000000000000000000000000000000000000000000000000000000000000000000000000000000000000000000019f,
  0x100000000000000000000000000000000000000000000000000000000000000000000000000000000000000000000000000000000000000000000000000000000000000000000000000000000000000000000000000000001a0,
  0x10000000000000000000000000000000000000000000000000000000000000000000000000000000000000000000000000000000000000000000000000000000000000000000000000000000000000000000000000000000000000001a1,
  0x100000000000000000000000000000000000000000000000000000000000000000000000000000000000000000000000000000000000000000000000000000000000000000000000000000000000000000000000000000001a2,
  0x1000000000000000000000000000000000000000000000000000000000000000000000000000000000000000000000000000000000000000000000000000000000000000000000000000000000000000000000001a3,
  0x10000000000000000000000000000000000000000000000000000000000000000000000000000000000000000000000000000000000000000000000000000000000000000000000000000000000000001a4,
  0x100000000000000000000000000000000000000000000000000000000000000000000000000000000000000000000000000000000000000000000000000000000000000000000000000000001a5,
  0x1000000000000000000000000000000000000000000000000000000000000000000000000000000000000000000000000000000000000000000000000000000000000000000000001a6,
  0x10000000000000000000000000000000000000000000000000000000000000000000000000000000000000000000000000000000000000000000000000000000000000001a7,
  0x100000000000000000000000000000000000000000000000000000000000000000000000000000000000000000000000000000000000000000000000000000001a8,
  0x1000000000000000000000000000000000000000000000000000000000000000000000000000000000000000000000000000000000000000000000001a9,
  0x10000000000000000000000000000000000000000000000000000000000000000000000000000000000000000000000000000000000000001aa,
  0x100000000000000000000000000000000000000000000000000000000000000000000000000000000000000000000000000000001ab,
  0x1000000000000000000000000000000000000000000000000000000000000000000000000000000000000000000000001ac,
  0x10000000000000000000000000000000000000000000000000000000000000000000000000000000000000001ad,
  0x100000000000000000000000000000000000000000000000000000000000000000000000000000001ae,
  0x1000000000000000000000000000000000000000000000000000000000000000000000001af,
  0x10000000000000000000000000000000000000000000000000000000000000001b0, 0x100000000000000000000000000000000000000000000000000000001b1,
  0x10000000000000000000000000000000000000000000000000000000000000001b2,
  0x1000000000000000000000000000000000000000000000000000000000000000000000001b3,
  0x100000000000000000000000000000000000000000000000000000000000000000000000000000001b4,
  0x10000000000000000000000000000000000000000000000000000000000000000000000000000000000000001b5,
  0x1000000000000000000000000000000000000000000000000000000000000000000000000000000000000000000000001b6,
  0x100000000000000000000000000000000000000000000000000000000000000000000000000000000000000000000000000000001b7,
  0x10000000000000000000000000000000000000000000000000000000000000000000000000000000000000000000000000000000000000001b8,
  0x1000000000000000000000000000000000000000000000000000000000000000000000000000000000000000000000000000000000000000000000001b9,
  0x100000000000000000000000000000000000000000000000000000000000000000000000000000000000000000000000000000000000000000000000000000001ba,
  0x10000000000000000000000000000000000000000000000000000000000000000000000000000000000000000000000000000000000000000000000000000000000000001bb,
  0x1000000000000000000000000000000000000000000000000000000000000000000000000000000000000000000000000000000000000000000000000000000000000000000000001bc,
  0x100000000000000000000000000000000000000000000000000000000000000000000000000000000000000000000000000000000000000000000000000000000000000000000000000000001bd,
  0x10000000000000000000000000000000000000000000000000000000000000000000000000000000000000000000000000000000000000000000000000000000000000000000000000000000000000001be,
  0x1000000000000000000000000000000000000000000000000000000000000000000000000000000000000000000000000000000000000000000000000000000000000000000000000000000000000000000000001bf,
  0x100000000000000000000000000000000000000000000000000000000000000000000000000000000000000000000000000000000000000000000000000000000000000000000000000000000000000000000000000000001c0,
  0x10000000000000000000000000000000000000000000000000000000000000000000000000000000000000000000000000000000000000000000000000000000000000000000000000000000000000000000000000000000000000001c1,
  0x100000000000000000000000000000000000000000000000000000001c2, 0x10000000000000000000000000000000000000000000000000000000000000001c3,
  0x1000000000000000000000000000000000000000000000000000000000000000000000001c4,
  0x100000000000000000000000000000000000000000000000000000000000000000000000000000001c5,
  0x10000000000000000000000000000000000000000000000000000000000000000000000000000000000000001c6,
  0x1000000000000000000000000000000000000000000000000000000000000000000000000000000000000000000000001c7,
  0x100000000000000000000000000000000000000000000000000000000000000000000000000000000000000000000000000000001c8,
  0x10000000000000000000000000000000000000000000000000000000000000000000000000000000000000000000000000000000000000001c9,
  0x1000000000000000000000000000000000000000000000000000000000000000000000000000000000000000000000000000000000000000000000001ca,
  0x100000000000000000000000000000000000000000000000000000000000000000000000000000000000000000000000000000000000000000000000000000001cb,
  0x10000000000000000000000000000000000000000000000000000000000000000000000000000000000000000000000000000000000000000000000000000000000000001cc,
  0x1000000000000000000000000000000000000000000000000000000000000000000000000000000000000000000000000000000000000000000000000000000000000000000000001cd,
  0x100000000000000000000000000000000000000000000000000000000000000000000000000000000000000000000000000000000000000000000000000000000000000000000000000000001ce,
  0x10000000000000000000000000000000000000000000000000000000000000000000000000000000000000000000000000000000000000000000000000000000000000000000000000000000000000001cf,
  0x1000000000000000000000000000000000000000000000000000000000000000000000000000000000000000000000000000000000000000000000000000000000000000000000000000000000000000000000001d0,
  0x100000000000000000000000000000000000000000000000000000000000000000000000000000000000000000000000000000000000000000000000000000000000000000000000000000000000000000000000000000001d1,
  0x10000000000000000000000000000000000000000000000000000000000000000000000000000000000000000000000000000000000000000000000000000000000000000000000000000000000000000000000000000000000000001d2,
  0x100000000000000000000000000000000000000000000000000000000000000000000000000000000000000000000000000000000000000000000000000000000000000000000000000000000000000000000000000000001d4,
  0x100000000000000000000000000000000000000000000000000000001d5, 0x100000000000000000000000000000000000000000000000000000501d6,
  0x100000000000000000000000000000000000000000000000000000001d6, 0x10000000000000000000000000000000000000000000000000000000000000001d7,
  0x1000000000000000000000000000000000000000000000000000000000000000000000001d8,
  0x100000000000000000000000000000000000000000000000000000000000000000000000000000001d9,
  0x10000000000000000000000000000000000000000000000000000000000000000000000000000000000000001da,
  0x1000000000000000000000000000000000000000000000000000000000000000000000000000000000000000000000001db,
  0x100000000000000000000000000000000000000000000000000000000000000000000000000000000000000000000000000000001dc,
  0x10000000000000000000000000000000000000000000000000000000000000000000000000000000000000000000000000000000000000001dd,
  0x1000000000000000000000000000000000000000000000000000000000000000000000000000000000000000000000000000000000000000000000001de,
  0x100000000000000000000000000000000000000000000000000000000000000000000000000000000000000000000000000000000000000000000000000000001df,
  0x10000000000000000000000000000000000000000000000000000000000000000000000000000000000000000000000000000000000000000000000000000000000000001e0,
  0x1000000000000000000000000000000000000000000000000000000000000000000000000000000000000000000000000000000000000000000000000000000000000000000000001e1,
  0x100000000000000000000000000000000000000000000000000000000000000000000000000000000000000000000000000000000000000000000000000000000000000000000000000000001e2,
  0x10000000000000000000000000000000000000000000000000000000000000000000000000000000000000000000000000000000000000000000000000000000000000000000000000000000000000001e3,
  0x1000000000000000000000000000000000000000000000000000000000000000000000000000000000000000000000000000000000000000000000000000000000000000000000000000000000000000000000001e4,
  0x100000000000000000000000000000000000000000000000000000000000000000000000000000000000000000000000000000000000000000000000000000000000000000000000000000000000000000000000000000001e5,
  0x10000000000000000000000000000000000000000000000000000000000000000000000000000000000000000000000000000000000000000000000000000000000000000000000000000000000000000000000000000000000000001e6,
  0x1000000000000000000000000000000000000000000000000000000000000000000000000000000000000000000000000000000000000000000000000000000000000000000000000000000000000000000000000000000000000000000000001e7,
  0x10000000000000000000000000000000000000000000000000000000000000000000000000000000000000000000000000000000000000000000000000000000000000000000000000000000000000000000000000000000000000001e8,
  0x100000000000000000000000000000000000000000000000000000000000000000000000000000000000000000000000000000000000000000000000000000000000000000000000000000000000000000000000000000001e9,
  0x1000000000000000000000000000000000000000000000000000000000000000000000000000000000000000000000000000000000000000000000000000000000000000000000000000000000000000000000001ea,
  0x10000000000000000000000000000000000000000000000000000000000000000000000000000000000000000000000000000000000000000000000000000000000000000000000000000000000000001eb,
  0x100000000000000000000000000000000000000000000000000000000000000000000000000000000000000000000000000000000000000000000000000000000000000000000000000000001ec,
  0x1000000000000000000000000000000000000000000000000000000000000000000000000000000000000000000000000000000000000000000000000000000000000000000000001ed,
  0x10000000000000000000000000000000000000000000000000000000000000000000000000000000000000000000000000000000000000000000000000000000000000001ee,
  0x100000000000000000000000000000000000000000000000000000000000000000000000000000000000000000000000000000000000000000000000000000001ef,
  0x1000000000000000000000000000000000000000000000000000000000000000000000000000000000000000000000000000000000000000000000001f0,
  0x10000000000000000000000000000000000000000000000000000000000000000000000000000000000000000000000000000000000000001f1,
  0x100000000000000000000000000000000000000000000000000000000000000000000000000000000000000000000000000000001f2,
  0x1000000000000000000000000000000000000000000000000000000000000000000000000000000000000000000000001f3,
  0x10000000000000000000000000000000000000000000000000000000000000000000000000000000000000001f4,
  0x100000000000000000000000000000000000000000000000000000000000000000000000000000001f5,
  0x1000000000000000000000000000000000000000000000000000000000000000000000001f6,
  0x10000000000000000000000000000000000000000000000000000000000000001f7,
  0x1000000000000000000000000000000000000000000000000000000000000000000000001f8,
  0x100000000000000000000000000000000000000000000000000000000000000000000000000000001f9,
  0x10000000000000000000000000000000000000000000000000000000000000000000000000000000000000001fa,
  0x1000000000000000000000000000000000000000000000000000000000000000000000000000000000000000000000001fb,
  0x100000000000000000000000000000000000000000000000000000000000000000000000000000000000000000000000000000001fc,
  0x10000000000000000000000000000000000000000000000000000000000000000000000000000000000000000000000000000000000000001fd,
  0x1000000000000000000000000000000000000000000000000000000000000000000000000000000000000000000000000000000000000000000000001fe,
  0x100000000000000000000000000000000000000000000000000000000000000000000000000000000000000000000000000000000000000000000000000000001ff,
  0x1000000000000000000000000000000000000000000000000000000000000000000000000000000000000000000000000000000000000000000000000000000000000000200,
  0x100000000000000000000000000000000000000000000000000000000000000000000000000000000000000000000000000000000000000000000000000000000000000000000000201,
  0x10000000000000000000000000000000000000000000000000000000000000000000000000000000000000000000000000000000000000000000000000000000000000000000000000000000202,
  0x1000000000000000000000000000000000000000000000000000000000000000000000000000000000000000000000000000000000000000000000000000000000000000000000000000000000000000203,
  0x100000000000000000000000000000000000000000000000000000000000000000000000000000000000000000000000000000000000000000000000000000000000000000000000000000000000000000000000204,
  0x10000000000000000000000000000000000000000000000000000000000000000000000000000000000000000000000000000000000000000000000000000000000000000000000000000000000000000000000000000000205,
  0x1000000000000000000000000000000000000000000000000000000000000000000000000000000000000000000000000000000000000000000000000000000000000000000000000000000000000000000000000000000000000000206,
  0x100000000000000000000000000000000000000000000000000000000000000000000000000000000000000000000000000000000000000000000000000000000000000000000000000000000000000000000000000000000000000000000000207,
  0x1000000000000000000000000000000000000000000000000000000000000000208,
  0x100000000000000000000000000000000000000000000000000000000000000000000000209,
  0x1000000000000000000000000000000000000000000000000000000000000000000000000000000020a,
  0x100000000000000000000000000000000000000000000000000000000000000000000000000000000000000020b,
  0x10000000000000000000000000000000000000000000000000000000000000000000000000000000000000000000000020c,
  0x1000000000000000000000000000000000000000000000000000000000000000000000000000000000000000000000000000000020d,
  0x100000000000000000000000000000000000000000000000000000000000000000000000000000000000000000000000000000000000000020e,
  0x10000000000000000000000000000000000000000000000000000000000000000000000000000000000000000000000000000000000000000000000020f,
  0x10000000000000000000000000000000000000000000000000000000000000000000000000000000000000000000000000000000000000000000000000000000210,
  0x1000000000000000000000000000000000000000000000000000000000000000000000000000000000000000000000000000000000000000000000000000000000000000211,
  0x100000000000000000000000000000000000000000000000000000000000000000000000000000000000000000000000000000000000000000000000000000000000000000000000212,
  0x10000000000000000000000000000000000000000000000000000000000000000000000000000000000000000000000000000000000000000000000000000000000000000000000000000000213,
  0x1000000000000000000000000000000000000000000000000000000000000000000000000000000000000000000000000000000000000000000000000000000000000000000000000000000000000000214,
  0x100000000000000000000000000000000000000000000000000000000000000000000000000000000000000000000000000000000000000000000000000000000000000000000000000000000000000000000000215,
  0x10000000000000000000000000000000000000000000000000000000000000000000000000000000000000000000000000000000000000000000000000000000000000000000000000000000000000000000000000000000216,
  0x1000000000000000000000000000000000000000000000000000000000000000000000000000000000000000000000000000000000000000000000000000000000000000000000000000000000000000000000000000000000000000217,
  0x100000000000000000000000000000000000000000000000000000000000000000000000000000000000000000000000000000000000000000000000000000000000000000000000000000000000000000000000000000000000000000000000218,
  0x100000000000000000000000000000000000000000000000000000000000000000000000000000000000000000000000000000000000000000000000000000000000000000000000000000000000000000000000000000000000000021a,
  0x100000000000000000000000000000000000000000000000000000000000000021b,
  0x100000000000000000000000000000000000000000000000000000000000005021c,
  0x100000000000000000000000000000000000000000000000000000000000000021c,
  0x10000000000000000000000000000000000000000000000000000000000000000000000021d,
  0x1000000000000000000000000000000000000000000000000000000000000000000000000000000021e,
  0x100000000000000000000000000000000000000000000000000000000000000000000000000000000000000021f,
  0x100000000000000000000000000000000000000000000000000000000000000000000000000000000000000000000000220,
  0x10000000000000000000000000000000000000000000000000000000000000000000000000000000000000000000000000000000221,
  0x1000000000000000000000000000000000000000000000000000000000000000000000000000000000000000000000000000000000000000222,
  0x100000000000000000000000000000000000000000000000000000000000000000000000000000000000000000000000000000000000000000000000223,
  0x10000000000000000000000000000000000000000000000000000000000000000000000000000000000000000000000000000000000000000000000000000000224,
  0x1000000000000000000000000000000000000000000000000000000000000000000000000000000000000000000000000000000000000000000000000000000000000000225,
  0x100000000000000000000000000000000000000000000000000000000000000000000000000000000000000000000000000000000000000000000000000000000000000000000000226,
  0x10000000000000000000000000000000000000000000000000000000000000000000000000000000000000000000000000000000000000000000000000000000000000000000000000000000227,
  0x1000000000000000000000000000000000000000000000000000000000000000000000000000000000000000000000000000000000000000000000000000000000000000000000000000000000000000228,
  0x100000000000000000000000000000000000000000000000000000000000000000000000000000000000000000000000000000000000000000000000000000000000000000000000000000000000000000000000229,
  0x1000000000000000000000000000000000000000000000000000000000000000000000000000000000000000000000000000000000000000000000000000000000000000000000000000000000000000000000000000000022a,
  0x100000000000000000000000000000000000000000000000000000000000000000000000000000000000000000000000000000000000000000000000000000000000000000000000000000000000000000000000000000000000000022b,
  0x10000000000000000000000000000000000000000000000000000000000000000000000000000000000000000000000000000000000000000000000000000000000000000000000000000000000000000000000000000000000000000000000022c,
  0x1000000000000000000000000000000000000000000000000000000000000000000000000000000000000000000000000000000000000000000000000000000000000000000000000000000000000000000000000000000000000000000000000000000022d,
  0x10000000000000000000000000000000000000000000000000000000000000000000000000000000000000000000000000000000000000000000000000000000000000000000000000000000000000000000000000000000000000000000000022e,
  0x100000000000000000000000000000000000000000000000000000000000000000000000000000000000000000000000000000000000000000000000000000000000000000000000000000000000000000000000000000000000000022f,
  0x10000000000000000000000000000000000000000000000000000000000000000000000000000000000000000000000000000000000000000000000000000000000000000000000000000000000000000000000000000000230,
  0x100000000000000000000000000000000000000000000000000000000000000000000000000000000000000000000000000000000000000000000000000000000000000000000000000000000000000000000000231,
  0x1000000000000000000000000000000000000000000000000000000000000000000000000000000000000000000000000000000000000000000000000000000000000000000000000000000000000000232,
  0x10000000000000000000000000000000000000000000000000000000000000000000000000000000000000000000000000000000000000000000000000000000000000000000000000000000233,
  0x100000000000000000000000000000000000000000000000000000000000000000000000000000000000000000000000000000000000000000000000000000000000000000000000234,
  0x1000000000000000000000000000000000000000000000000000000000000000000000000000000000000000000000000000000000000000000000000000000000000000235,
  0x10000000000000000000000000000000000000000000000000000000000000000000000000000000000000000000000000000000000000000000000000000000236,
  0x100000000000000000000000000000000000000000000000000000000000000000000000000000000000000000000000000000000000000000000000237,
  0x1000000000000000000000000000000000000000000000000000000000000000000000000000000000000000000000000000000000000000238,
  0x10000000000000000000000000000000000000000000000000000000000000000000000000000000000000000000000000000000239,
  0x10000000000000000000000000000000000000000000000000000000000000000000000000000000000000000000000023a,
  0x100000000000000000000000000000000000000000000000000000000000000000000000000000000000000023b,
  0x1000000000000000000000000000000000000000000000000000000000000000000000000000000023c,
  0x10000000000000000000000000000000000000000000000000000000000000000000000023d,
  0x1000000000000000000000000000000000000000000000000000000000000000000000000000000023e,
  0x100000000000000000000000000000000000000000000000000000000000000000000000000000000000000023f,
  0x100000000000000000000000000000000000000000000000000000000000000000000000000000000000000000000000240,
  0x10000000000000000000000000000000000000000000000000000000000000000000000000000000000000000000000000000000241,
  0x1000000000000000000000000000000000000000000000000000000000000000000000000000000000000000000000000000000000000000242,
  0x100000000000000000000000000000000000000000000000000000000000000000000000000000000000000000000000000000000000000000000000243,
  0x10000000000000000000000000000000000000000000000000000000000000000000000000000000000000000000000000000000000000000000000000000000244,
  0x1000000000000000000000000000000000000000000000000000000000000000000000000000000000000000000000000000000000000000000000000000000000000000245,
  0x100000000000000000000000000000000000000000000000000000000000000000000000000000000000000000000000000000000000000000000000000000000000000000000000246,
  0x10000000000000000000000000000000000000000000000000000000000000000000000000000000000000000000000000000000000000000000000000000000000000000000000000000000247,
  0x1000000000000000000000000000000000000000000000000000000000000000000000000000000000000000000000000000000000000000000000000000000000000000000000000000000000000000248,
  0x100000000000000000000000000000000000000000000000000000000000000000000000000000000000000000000000000000000000000000000000000000000000000000000000000000000000000000000000249,
  0x1000000000000000000000000000000000000000000000000000000000000000000000000000000000000000000000000000000000000000000000000000000000000000000000000000000000000000000000000000000024a,
  0x100000000000000000000000000000000000000000000000000000000000000000000000000000000000000000000000000000000000000000000000000000000000000000000000000000000000000000000000000000000000000024b,
  0x10000000000000000000000000000000000000000000000000000000000000000000000000000000000000000000000000000000000000000000000000000000000000000000000000000000000000000000000000000000000000000000000024c,
  0x1000000000000000000000000000000000000000000000000000000000000000000000000000000000000000000000000000000000000000000000000000000000000000000000000000000000000000000000000000000000000000000000000000000024d,
  0x10000000000000000000000000000000000000000000000000000000000000000000000024e,
  0x1000000000000000000000000000000000000000000000000000000000000000000000000000000024f,
  0x1000000000000000000000000000000000000000000000000000000000000000000000000000000000000000250,
  0x100000000000000000000000000000000000000000000000000000000000000000000000000000000000000000000000251,
  0x10000000000000000000000000000000000000000000000000000000000000000000000000000000000000000000000000000000252,
  0x1000000000000000000000000000000000000000000000000000000000000000000000000000000000000000000000000000000000000000253,
  0x100000000000000000000000000000000000000000000000000000000000000000000000000000000000000000000000000000000000000000000000254,
  0x10000000000000000000000000000000000000000000000000000000000000000000000000000000000000000000000000000000000000000000000000000000255,
  0x1000000000000000000000000000000000000000000000000000000000000000000000000000000000000000000000000000000000000000000000000000000000000000256,
  0x100000000000000000000000000000000000000000000000000000000000000000000000000000000000000000000000000000000000000000000000000000000000000000000000257,
  0x10000000000000000000000000000000000000000000000000000000000000000000000000000000000000000000000000000000000000000000000000000000000000000000000000000000258,
  0x1000000000000000000000000000000000000000000000000000000000000000000000000000000000000000000000000000000000000000000000000000000000000000000000000000000000000000259,
  0x10000000000000000000000000000000000000000000000000000000000000000000000000000000000000000000000000000000000000000000000000000000000000000000000000000000000000000000000025a,
  0x1000000000000000000000000000000000000000000000000000000000000000000000000000000000000000000000000000000000000000000000000000000000000000000000000000000000000000000000000000000025b,
  0x100000000000000000000000000000000000000000000000000000000000000000000000000000000000000000000000000000000000000000000000000000000000000000000000000000000000000000000000000000000000000025c,
  0x10000000000000000000000000000000000000000000000000000000000000000000000000000000000000000000000000000000000000000000000000000000000000000000000000000000000000000000000000000000000000000000000025d,
  0x1000000000000000000000000000000000000000000000000000000000000000000000000000000000000000000000000000000000000000000000000000000000000000000000000000000000000000000000000000000000000000000000000000000025e,
  0x100000000000000000000000000000000000000000000000000000000000000000000000000000000000000000000000000000000000000000000000000000000000000000000000000000000000000000000000000000000000000000000000260,
  0x100000000000000000000000000000000000000000000000000000000000000000000000261,
  0x100000000000000000000000000000000000000000000000000000000000000000000050262,
  0x100000000000000000000000000000000000000000000000000000000000000000000000262,
  0x10000000000000000000000000000000000000000000000000000000000000000000000000000000263,
  0x1000000000000000000000000000000000000000000000000000000000000000000000000000000000000000264,
  0x100000000000000000000000000000000000000000000000000000000000000000000000000000000000000000000000265,
  0x10000000000000000000000000000000000000000000000000000000000000000000000000000000000000000000000000000000266,
  0x1000000000000000000000000000000000000000000000000000000000000000000000000000000000000000000000000000000000000000267,
  0x100000000000000000000000000000000000000000000000000000000000000000000000000000000000000000000000000000000000000000000000268,
  0x10000000000000000000000000000000000000000000000000000000000000000000000000000000000000000000000000000000000000000000000000000000269,
  0x100000000000000000000000000000000000000000000000000000000000000000000000000000000000000000000000000000000000000000000000000000000000000026a,
  0x10000000000000000000000000000000000000000000000000000000000000000000000000000000000000000000000000000000000000000000000000000000000000000000000026b,
  0x1000000000000000000000000000000000000000000000000000000000000000000000000000000000000000000000000000000000000000000000000000000000000000000000000000000026c,
  0x100000000000000000000000000000000000000000000000000000000000000000000000000000000000000000000000000000000000000000000000000000000000000000000000000000000000000026d,
  0x10000000000000000000000000000000000000000000000000000000000000000000000000000000000000000000000000000000000000000000000000000000000000000000000000000000000000000000000026e,
  0x1000000000000000000000000000000000000000000000000000000000000000000000000000000000000000000000000000000000000000000000000000000000000000000000000000000000000000000000000000000026f,
  0x1000000000000000000000000000000000000000000000000000000000000000000000000000000000000000000000000000000000000000000000000000000000000000000000000000000000000000000000000000000000000000270,
  0x100000000000000000000000000000000000000000000000000000000000000000000000000000000000000000000000000000000000000000000000000000000000000000000000000000000000000000000000000000000000000000000000271,
  0x10000000000000000000000000000000000000000000000000000000000000000000000000000000000000000000000000000000000000000000000000000000000000000000000000000000000000000000000000000000000000000000000000000000272,
  0x1000000000000000000000000000000000000000000000000000000000000000000000000000000000000000000000000000000000000000000000000000000000000000000000000000000000000000000000000000000000000000000000000000000000000000273,
  0x10000000000000000000000000000000000000000000000000000000000000000000000000000000000000000000000000000000000000000000000000000000000000000000000000000000000000000000000000000000000000000000000000000000274,
  0x100000000000000000000000000000000000000000000000000000000000000000000000000000000000000000000000000000000000000000000000000000000000000000000000000000000000000000000000000000000000000000000000275,
  0x1000000000000000000000000000000000000000000000000000000000000000000000000000000000000000000000000000000000000000000000000000000000000000000000000000000000000000000000000000000000000000276,
  0x10000000000000000000000000000000000000000000000000000000000000000000000000000000000000000000000000000000000000000000000000000000000000000000000000000000000000000000000000000000277,
  0x100000000000000000000000000000000000000000000000000000000000000000000000000000000000000000000000000000000000000000000000000000000000000000000000000000000000000000000000278,
  0x1000000000000000000000000000000000000000000000000000000000000000000000000000000000000000000000000000000000000000000000000000000000000000000000000000000000000000279,
  0x1000000000000000000000000000000000000000000000000000000000000000000000000000000000000000000000000000000000000000000000000000000000000000000000000000000027a,
  0x10000000000000000000000000000000000000000000000000000000000000000000000000000000000000000000000000000000000000000000000000000000000000000000000027b,
  0x100000000000000000000000000000000000000000000000000000000000000000000000000000000000000000000000000000000000000000000000000000000000000027c,
  0x1000000000000000000000000000000000000000000000000000000000000000000000000000000000000000000000000000000000000000000000000000000027d,
  0x10000000000000000000000000000000000000000000000000000000000000000000000000000000000000000000000000000000000000000000000027e,
  0x100000000000000000000000000000000000000000000000000000000000000000000000000000000000000000000000000000000000000027f,
  0x10000000000000000000000000000000000000000000000000000000000000000000000000000000000000000000000000000000280,
  0x100000000000000000000000000000000000000000000000000000000000000000000000000000000000000000000000281,
  0x1000000000000000000000000000000000000000000000000000000000000000000000000000000000000000282,
  0x10000000000000000000000000000000000000000000000000000000000000000000000000000000283,
  0x1000000000000000000000000000000000000000000000000000000000000000000000000000000000000000284,
  0x100000000000000000000000000000000000000000000000000000000000000000000000000000000000000000000000285,
  0x10000000000000000000000000000000000000000000000000000000000000000000000000000000000000000000000000000000286,
  0x1000000000000000000000000000000000000000000000000000000000000000000000000000000000000000000000000000000000000000287,
  0x100000000000000000000000000000000000000000000000000000000000000000000000000000000000000000000000000000000000000000000000288,
  0x10000000000000000000000000000000000000000000000000000000000000000000000000000000000000000000000000000000000000000000000000000000289,
  0x100000000000000000000000000000000000000000000000000000000000000000000000000000000000000000000000000000000000000000000000000000000000000028a,
  0x10000000000000000000000000000000000000000000000000000000000000000000000000000000000000000000000000000000000000000000000000000000000000000000000028b,
  0x1000000000000000000000000000000000000000000000000000000000000000000000000000000000000000000000000000000000000000000000000000000000000000000000000000000028c,
  0x100000000000000000000000000000000000000000000000000000000000000000000000000000000000000000000000000000000000000000000000000000000000000000000000000000000000000028d,
  0x10000000000000000000000000000000000000000000000000000000000000000000000000000000000000000000000000000000000000000000000000000000000000000000000000000000000000000000000028e,
  0x1000000000000000000000000000000000000000000000000000000000000000000000000000000000000000000000000000000000000000000000000000000000000000000000000000000000000000000000000000000028f,
  0x1000000000000000000000000000000000000000000000000000000000000000000000000000000000000000000000000000000000000000000000000000000000000000000000000000000000000000000000000000000000000000290,
  0x100000000000000000000000000000000000000000000000000000000000000000000000000000000000000000000000000000000000000000000000000000000000000000000000000000000000000000000000000000000000000000000000291,
  0x10000000000000000000000000000000000000000000000000000000000000000000000000000000000000000000000000000000000000000000000000000000000000000000000000000000000000000000000000000000000000000000000000000000292,
  0x1000000000000000000000000000000000000000000000000000000000000000000000000000000000000000000000000000000000000000000000000000000000000000000000000000000000000000000000000000000000000000000000000000000000000000293,
  0x10000000000000000000000000000000000000000000000000000000000000000000000000000000294,
  0x1000000000000000000000000000000000000000000000000000000000000000000000000000000000000000295,
  0x100000000000000000000000000000000000000000000000000000000000000000000000000000000000000000000000296,
  0x10000000000000000000000000000000000000000000000000000000000000000000000000000000000000000000000000000000297,
  0x1000000000000000000000000000000000000000000000000000000000000000000000000000000000000000000000000000000000000000298,
  0x100000000000000000000000000000000000000000000000000000000000000000000000000000000000000000000000000000000000000000000000299,
  0x1000000000000000000000000000000000000000000000000000000000000000000000000000000000000000000000000000000000000000000000000000000029a,
  0x100000000000000000000000000000000000000000000000000000000000000000000000000000000000000000000000000000000000000000000000000000000000000029b,
  0x10000000000000000000000000000000000000000000000000000000000000000000000000000000000000000000000000000000000000000000000000000000000000000000000029c,
  0x1000000000000000000000000000000000000000000000000000000000000000000000000000000000000000000000000000000000000000000000000000000000000000000000000000000029d,
  0x100000000000000000000000000000000000000000000000000000000000000000000000000000000000000000000000000000000000000000000000000000000000000000000000000000000000000029e,
  0x10000000000000000000000000000000000000000000000000000000000000000000000000000000000000000000000000000000000000000000000000000000000000000000000000000000000000000000000029f,
  0x100000000000000000000000000000000000000000000000000000000000000000000000000000000000000000000000000000000000000000000000000000000000000000000000000000000000000000000000000000002a0,
  0x10000000000000000000000000000000000000000000000000000000000000000000000000000000000000000000000000000000000000000000000000000000000000000000000000000000000000000000000000000000000000002a1,
  0x1000000000000000000000000000000000000000000000000000000000000000000000000000000000000000000000000000000000000000000000000000000000000000000000000000000000000000000000000000000000000000000000002a2,
  0x100000000000000000000000000000000000000000000000000000000000000000000000000000000000000000000000000000000000000000000000000000000000000000000000000000000000000000000000000000000000000000000000000000002a3,
  0x10000000000000000000000000000000000000000000000000000000000000000000000000000000000000000000000000000000000000000000000000000000000000000000000000000000000000000000000000000000000000000000000000000000000000002a4,
  0x100000000000000000000000000000000000000000000000000000000000000000000000000000000000000000000000000000000000000000000000000000000000000000000000000000000000000000000000000000000000000000000000000000002a6,
  0x100000000000000000000000000000000000000000000000000000000000000000000000000000002a7,
  0x100000000000000000000000000000000000000000000000000000000000000000000000000000502a8,
  0x100000000000000000000000000000000000000000000000000000000000000000000000000000002a8,
  0x10000000000000000000000000000000000000000000000000000000000000000000000000000000000000002a9,
  0x1000000000000000000000000000000000000000000000000000000000000000000000000000000000000000000000002aa,
  0x100000000000000000000000000000000000000000000000000000000000000000000000000000000000000000000000000000002ab,
  0x10000000000000000000000000000000000000000000000000000000000000000000000000000000000000000000000000000000000000002ac,
  0x1000000000000000000000000000000000000000000000000000000000000000000000000000000000000000000000000000000000000000000000002ad,
  0x100000000000000000000000000000000000000000000000000000000000000000000000000000000000000000000000000000000000000000000000000000002ae,
  0x10000000000000000000000000000000000000000000000000000000000000000000000000000000000000000000000000000000000000000000000000000000000000002af,
  0x1000000000000000000000000000000000000000000000000000000000000000000000000000000000000000000000000000000000000000000000000000000000000000000000002b0,
  0x100000000000000000000000000000000000000000000000000000000000000000000000000000000000000000000000000000000000000000000000000000000000000000000000000000002b1,
  0x10000000000000000000000000000000000000000000000000000000000000000000000000000000000000000000000000000000000000000000000000000000000000000000000000000000000000002b2,
  0x1000000000000000000000000000000000000000000000000000000000000000000000000000000000000000000000000000000000000000000000000000000000000000000000000000000000000000000000002b3,
  0x100000000000000000000000000000000000000000000000000000000000000000000000000000000000000000000000000000000000000000000000000000000000000000000000000000000000000000000000000000002b4,
  0x10000000000000000000000000000000000000000000000000000000000000000000000000000000000000000000000000000000000000000000000000000000000000000000000000000000000000000000000000000000000000002b5,
  0x1000000000000000000000000000000000000000000000000000000000000000000000000000000000000000000000000000000000000000000000000000000000000000000000000000000000000000000000000000000000000000000000002b6,
  0x100000000000000000000000000000000000000000000000000000000000000000000000000000000000000000000000000000000000000000000000000000000000000000000000000000000000000000000000000000000000000000000000000000002b7,
  0x10000000000000000000000000000000000000000000000000000000000000000000000000000000000000000000000000000000000000000000000000000000000000000000000000000000000000000000000000000000000000000000000000000000000000002b8,
  0x1000000000000000000000000000000000000000000000000000000000000000000000000000000000000000000000000000000000000000000000000000000000000000000000000000000000000000000000000000000000000000000000000000000000000000000000002b9,
  0x10000000000000000000000000000000000000000000000000000000000000000000000000000000000000000000000000000000000000000000000000000000000000000000000000000000000000000000000000000000000000000000000000000000000000002ba,
  0x100000000000000000000000000000000000000000000000000000000000000000000000000000000000000000000000000000000000000000000000000000000000000000000000000000000000000000000000000000000000000000000000000000002bb,
  0x1000000000000000000000000000000000000000000000000000000000000000000000000000000000000000000000000000000000000000000000000000000000000000000000000000000000000000000000000000000000000000000000002bc,
  0x10000000000000000000000000000000000000000000000000000000000000000000000000000000000000000000000000000000000000000000000000000000000000000000000000000000000000000000000000000000000000002bd,
  0x100000000000000000000000000000000000000000000000000000000000000000000000000000000000000000000000000000000000000000000000000000000000000000000000000000000000000000000000000000002be,
  0x1000000000000000000000000000000000000000000000000000000000000000000000000000000000000000000000000000000000000000000000000000000000000000000000000000000000000000000000002bf,
  0x10000000000000000000000000000000000000000000000000000000000000000000000000000000000000000000000000000000000000000000000000000000000000000000000000000000000000002c0,
  0x100000000000000000000000000000000000000000000000000000000000000000000000000000000000000000000000000000000000000000000000000000000000000000000000000000002c1,
  0x1000000000000000000000000000000000000000000000000000000000000000000000000000000000000000000000000000000000000000000000000000000000000000000000002c2,
  0x10000000000000000000000000000000000000000000000000000000000000000000000000000000000000000000000000000000000000000000000000000000000000002c3,
  0x100000000000000000000000000000000000000000000000000000000000000000000000000000000000000000000000000000000000000000000000000000002c4,
  0x1000000000000000000000000000000000000000000000000000000000000000000000000000000000000000000000000000000000000000000000002c5,
  0x10000000000000000000000000000000000000000000000000000000000000000000000000000000000000000000000000000000000000002c6,
  0x100000000000000000000000000000000000000000000000000000000000000000000000000000000000000000000000000000002c7,
  0x1000000000000000000000000000000000000000000000000000000000000000000000000000000000000000000000002c8,
  0x10000000000000000000000000000000000000000000000000000000000000000000000000000000000000002c9,
  0x1000000000000000000000000000000000000000000000000000000000000000000000000000000000000000000000002ca,
  0x100000000000000000000000000000000000000000000000000000000000000000000000000000000000000000000000000000002cb,
  0x10000000000000000000000000000000000000000000000000000000000000000000000000000000000000000000000000000000000000002cc,
  0x1000000000000000000000000000000000000000000000000000000000000000000000000000000000000000000000000000000000000000000000002cd,
  0x100000000000000000000000000000000000000000000000000000000000000000000000000000000000000000000000000000000000000000000000000000002ce,
  0x10000000000000000000000000000000000000000000000000000000000000000000000000000000000000000000000000000000000000000000000000000000000000002cf,
  0x1000000000000000000000000000000000000000000000000000000000000000000000000000000000000000000000000000000000000000000000000000000000000000000000002d0,
  0x100000000000000000000000000000000000000000000000000000000000000000000000000000000000000000000000000000000000000000000000000000000000000000000000000000002d1,
  0x10000000000000000000000000000000000000000000000000000000000000000000000000000000000000000000000000000000000000000000000000000000000000000000000000000000000000002d2,
  0x1000000000000000000000000000000000000000000000000000000000000000000000000000000000000000000000000000000000000000000000000000000000000000000000000000000000000000000000002d3,
  0x100000000000000000000000000000000000000000000000000000000000000000000000000000000000000000000000000000000000000000000000000000000000000000000000000000000000000000000000000000002d4,
  0x10000000000000000000000000000000000000000000000000000000000000000000000000000000000000000000000000000000000000000000000000000000000000000000000000000000000000000000000000000000000000002d5,
  0x1000000000000000000000000000000000000000000000000000000000000000000000000000000000000000000000000000000000000000000000000000000000000000000000000000000000000000000000000000000000000000000000002d6,
  0x100000000000000000000000000000000000000000000000000000000000000000000000000000000000000000000000000000000000000000000000000000000000000000000000000000000000000000000000000000000000000000000000000000002d7,
  0x10000000000000000000000000000000000000000000000000000000000000000000000000000000000000000000000000000000000000000000000000000000000000000000000000000000000000000000000000000000000000000000000000000000000000002d8,
  0x1000000000000000000000000000000000000000000000000000000000000000000000000000000000000000000000000000000000000000000000000000000000000000000000000000000000000000000000000000000000000000000000000000000000000000000000002d9,
  0x10000000000000000000000000000000000000000000000000000000000000000000000000000000000000002da,
  0x1000000000000000000000000000000000000000000000000000000000000000000000000000000000000000000000002db,
  0x100000000000000000000000000000000000000000000000000000000000000000000000000000000000000000000000000000002dc,
  0x10000000000000000000000000000000000000000000000000000000000000000000000000000000000000000000000000000000000000002dd,
  0x1000000000000000000000000000000000000000000000000000000000000000000000000000000000000000000000000000000000000000000000002de,
  0x100000000000000000000000000000000000000000000000000000000000000000000000000000000000000000000000000000000000000000000000000000002df,
  0x10000000000000000000000000000000000000000000000000000000000000000000000000000000000000000000000000000000000000000000000000000000000000002e0,
  0x1000000000000000000000000000000000000000000000000000000000000000000000000000000000000000000000000000000000000000000000000000000000000000000000002e1,
  0x100000000000000000000000000000000000000000000000000000000000000000000000000000000000000000000000000000000000000000000000000000000000000000000000000000002e2,
  0x10000000000000000000000000000000000000000000000000000000000000000000000000000000000000000000000000000000000000000000000000000000000000000000000000000000000000002e3,
  0x1000000000000000000000000000000000000000000000000000000000000000000000000000000000000000000000000000000000000000000000000000000000000000000000000000000000000000000000002e4,
  0x100000000000000000000000000000000000000000000000000000000000000000000000000000000000000000000000000000000000000000000000000000000000000000000000000000000000000000000000000000002e5,
  0x10000000000000000000000000000000000000000000000000000000000000000000000000000000000000000000000000000000000000000000000000000000000000000000000000000000000000000000000000000000000000002e6,
  0x1000000000000000000000000000000000000000000000000000000000000000000000000000000000000000000000000000000000000000000000000000000000000000000000000000000000000000000000000000000000000000000000002e7,
  0x100000000000000000000000000000000000000000000000000000000000000000000000000000000000000000000000000000000000000000000000000000000000000000000000000000000000000000000000000000000000000000000000000000002e8,
  0x10000000000000000000000000000000000000000000000000000000000000000000000000000000000000000000000000000000000000000000000000000000000000000000000000000000000000000000000000000000000000000000000000000000000000002e9,
  0x1000000000000000000000000000000000000000000000000000000000000000000000000000000000000000000000000000000000000000000000000000000000000000000000000000000000000000000000000000000000000000000000000000000000000000000000002ea,
  0x10000000000000000000000000000000000000000000000000000000000000000000000000000000000000000000000000000000000000000000000000000000000000000000000000000000000000000000000000000000000000000000000000000000000000002ec,
  0x10000000000000000000000000000000000000000000000000000000000000000000000000000000000000002ed,
  0x10000000000000000000000000000000000000000000000000000000000000000000000000000000000000502ee,
  0x10000000000000000000000000000000000000000000000000000000000000000000000000000000000000002ee,
  0x1000000000000000000000000000000000000000000000000000000000000000000000000000000000000000000000002ef,
  0x100000000000000000000000000000000000000000000000000000000000000000000000000000000000000000000000000000002f0,
  0x10000000000000000000000000000000000000000000000000000000000000000000000000000000000000000000000000000000000000002f1,
  0x1000000000000000000000000000000000000000000000000000000000000000000000000000000000000000000000000000000000000000000000002f2,
  0x100000000000000000000000000000000000000000000000000000000000000000000000000000000000000000000000000000000000000000000000000000002f3,
  0x10000000000000000000000000000000000000000000000000000000000000000000000000000000000000000000000000000000000000000000000000000000000000002f4,
  0x1000000000000000000000000000000000000000000000000000000000000000000000000000000000000000000000000000000000000000000000000000000000000000000000002f5,
  0x100000000000000000000000000000000000000000000000000000000000000000000000000000000000000000000000000000000000000000000000000000000000000000000000000000002f6,
  0x10000000000000000000000000000000000000000000000000000000000000000000000000000000000000000000000000000000000000000000000000000000000000000000000000000000000000002f7,
  0x1000000000000000000000000000000000000000000000000000000000000000000000000000000000000000000000000000000000000000000000000000000000000000000000000000000000000000000000002f8,
  0x100000000000000000000000000000000000000000000000000000000000000000000000000000000000000000000000000000000000000000000000000000000000000000000000000000000000000000000000000000002f9,
  0x10000000000000000000000000000000000000000000000000000000000000000000000000000000000000000000000000000000000000000000000000000000000000000000000000000000000000000000000000000000000000002fa,
  0x1000000000000000000000000000000000000000000000000000000000000000000000000000000000000000000000000000000000000000000000000000000000000000000000000000000000000000000000000000000000000000000000002fb,
  0x100000000000000000000000000000000000000000000000000000000000000000000000000000000000000000000000000000000000000000000000000000000000000000000000000000000000000000000000000000000000000000000000000000002fc,
  0x10000000000000000000000000000000000000000000000000000000000000000000000000000000000000000000000000000000000000000000000000000000000000000000000000000000000000000000000000000000000000000000000000000000000000002fd,
  0x1000000000000000000000000000000000000000000000000000000000000000000000000000000000000000000000000000000000000000000000000000000000000000000000000000000000000000000000000000000000000000000000000000000000000000000000002fe,
  0x100000000000000000000000000000000000000000000000000000000000000000000000000000000000000000000000000000000000000000000000000000000000000000000000000000000000000000000000000000000000000000000000000000000000000000000000000000002ff,
  0x100000000000000000000000000000000000000000000000000000000000000000000000000000000000000000000000000000000000000000000000000000000000000000000000000000000000000000000000000000000000000000000000000000000000000000000000300,
  0x1000000000000000000000000000000000000000000000000000000000000000000000000000000000000000000000000000000000000000000000000000000000000000000000000000000000000000000000000000000000000000000000000000000000000000301,
  0x10000000000000000000000000000000000000000000000000000000000000000000000000000000000000000000000000000000000000000000000000000000000000000000000000000000000000000000000000000000000000000000000000000000302,
  0x100000000000000000000000000000000000000000000000000000000000000000000000000000000000000000000000000000000000000000000000000000000000000000000000000000000000000000000000000000000000000000000000303,
  0x1000000000000000000000000000000000000000000000000000000000000000000000000000000000000000000000000000000000000000000000000000000000000000000000000000000000000000000000000000000000000000304,
  0x10000000000000000000000000000000000000000000000000000000000000000000000000000000000000000000000000000000000000000000000000000000000000000000000000000000000000000000000000000000305,
  0x100000000000000000000000000000000000000000000000000000000000000000000000000000000000000000000000000000000000000000000000000000000000000000000000000000000000000000000000306,
  0x1000000000000000000000000000000000000000000000000000000000000000000000000000000000000000000000000000000000000000000000000000000000000000000000000000000000000000307,
  0x10000000000000000000000000000000000000000000000000000000000000000000000000000000000000000000000000000000000000000000000000000000000000000000000000000000308,
  0x100000000000000000000000000000000000000000000000000000000000000000000000000000000000000000000000000000000000000000000000000000000000000000000000309,
  0x100000000000000000000000000000000000000000000000000000000000000000000000000000000000000000000000000000000000000000000000000000000000000030a,
  0x1000000000000000000000000000000000000000000000000000000000000000000000000000000000000000000000000000000000000000000000000000000030b,
  0x10000000000000000000000000000000000000000000000000000000000000000000000000000000000000000000000000000000000000000000000030c,
  0x100000000000000000000000000000000000000000000000000000000000000000000000000000000000000000000000000000000000000030d,
  0x1000000000000000000000000000000000000000000000000000000000000000000000000000000000000000000000000000000030e,
  0x10000000000000000000000000000000000000000000000000000000000000000000000000000000000000000000000030f,
  0x10000000000000000000000000000000000000000000000000000000000000000000000000000000000000000000000000000000310,
  0x1000000000000000000000000000000000000000000000000000000000000000000000000000000000000000000000000000000000000000311,
  0x100000000000000000000000000000000000000000000000000000000000000000000000000000000000000000000000000000000000000000000000312,
  0x10000000000000000000000000000000000000000000000000000000000000000000000000000000000000000000000000000000000000000000000000000000313,
  0x1000000000000000000000000000000000000000000000000000000000000000000000000000000000000000000000000000000000000000000000000000000000000000314,
  0x100000000000000000000000000000000000000000000000000000000000000000000000000000000000000000000000000000000000000000000000000000000000000000000000315,
  0x10000000000000000000000000000000000000000000000000000000000000000000000000000000000000000000000000000000000000000000000000000000000000000000000000000000316,
  0x1000000000000000000000000000000000000000000000000000000000000000000000000000000000000000000000000000000000000000000000000000000000000000000000000000000000000000317,
  0x100000000000000000000000000000000000000000000000000000000000000000000000000000000000000000000000000000000000000000000000000000000000000000000000000000000000000000000000318,
  0x10000000000000000000000000000000000000000000000000000000000000000000000000000000000000000000000000000000000000000000000000000000000000000000000000000000000000000000000000000000319,
  0x100000000000000000000000000000000000000000000000000000000000000000000000000000000000000000000000000000000000000000000000000000000000000000000000000000000000000000000000000000000000000031a,
  0x10000000000000000000000000000000000000000000000000000000000000000000000000000000000000000000000000000000000000000000000000000000000000000000000000000000000000000000000000000000000000000000000031b,
  0x1000000000000000000000000000000000000000000000000000000000000000000000000000000000000000000000000000000000000000000000000000000000000000000000000000000000000000000000000000000000000000000000000000000031c,
  0x100000000000000000000000000000000000000000000000000000000000000000000000000000000000000000000000000000000000000000000000000000000000000000000000000000000000000000000000000000000000000000000000000000000000000031d,
  0x10000000000000000000000000000000000000000000000000000000000000000000000000000000000000000000000000000000000000000000000000000000000000000000000000000000000000000000000000000000000000000000000000000000000000000000000031e,
  0x1000000000000000000000000000000000000000000000000000000000000000000000000000000000000000000000000000000000000000000000000000000000000000000000000000000000000000000000000000000000000000000000000000000000000000000000000000000031f,
  0x100000000000000000000000000000000000000000000000000000000000000000000000000000000000000000000000320,
  0x10000000000000000000000000000000000000000000000000000000000000000000000000000000000000000000000000000000321,
  0x1000000000000000000000000000000000000000000000000000000000000000000000000000000000000000000000000000000000000000322,
  0x100000000000000000000000000000000000000000000000000000000000000000000000000000000000000000000000000000000000000000000000323,
  0x10000000000000000000000000000000000000000000000000000000000000000000000000000000000000000000000000000000000000000000000000000000324,
  0x1000000000000000000000000000000000000000000000000000000000000000000000000000000000000000000000000000000000000000000000000000000000000000325,
  0x100000000000000000000000000000000000000000000000000000000000000000000000000000000000000000000000000000000000000000000000000000000000000000000000326,
  0x10000000000000000000000000000000000000000000000000000000000000000000000000000000000000000000000000000000000000000000000000000000000000000000000000000000327,
  0x1000000000000000000000000000000000000000000000000000000000000000000000000000000000000000000000000000000000000000000000000000000000000000000000000000000000000000328,
  0x100000000000000000000000000000000000000000000000000000000000000000000000000000000000000000000000000000000000000000000000000000000000000000000000000000000000000000000000329,
  0x1000000000000000000000000000000000000000000000000000000000000000000000000000000000000000000000000000000000000000000000000000000000000000000000000000000000000000000000000000000032a,
  0x100000000000000000000000000000000000000000000000000000000000000000000000000000000000000000000000000000000000000000000000000000000000000000000000000000000000000000000000000000000000000032b,
  0x10000000000000000000000000000000000000000000000000000000000000000000000000000000000000000000000000000000000000000000000000000000000000000000000000000000000000000000000000000000000000000000000032c,
  0x1000000000000000000000000000000000000000000000000000000000000000000000000000000000000000000000000000000000000000000000000000000000000000000000000000000000000000000000000000000000000000000000000000000032d,
  0x100000000000000000000000000000000000000000000000000000000000000000000000000000000000000000000000000000000000000000000000000000000000000000000000000000000000000000000000000000000000000000000000000000000000000032e,
  0x10000000000000000000000000000000000000000000000000000000000000000000000000000000000000000000000000000000000000000000000000000000000000000000000000000000000000000000000000000000000000000000000000000000000000000000000032f,
  0x10000000000000000000000000000000000000000000000000000000000000000000000000000000000000000000000000000000000000000000000000000000000000000000000000000000000000000000000000000000000000000000000000000000000000000000000000000000330,
  0x100000000000000000000000000000000000000000000000000000000000000000000000000000000000000000000000000000000000000000000000000000000000000000000000000000000000000000000000000000000000000000000000000000000000000000000000332,
  0x100000000000000000000000000000000000000000000000000000000000000000000000000000000000000000000000333,
  0x100000000000000000000000000000000000000000000000000000000000000000000000000000000000000000000050334,
  0x100000000000000000000000000000000000000000000000000000000000000000000000000000000000000000000000334,
  0x10000000000000000000000000000000000000000000000000000000000000000000000000000000000000000000000000000000335,
  0x1000000000000000000000000000000000000000000000000000000000000000000000000000000000000000000000000000000000000000336,
  0x100000000000000000000000000000000000000000000000000000000000000000000000000000000000000000000000000000000000000000000000337,
  0x10000000000000000000000000000000000000000000000000000000000000000000000000000000000000000000000000000000000000000000000000000000338,
  0x1000000000000000000000000000000000000000000000000000000000000000000000000000000000000000000000000000000000000000000000000000000000000000339,
  0x10000000000000000000000000000000000000000000000000000000000000000000000000000000000000000000000000000000000000000000000000000000000000000000000033a,
  0x1000000000000000000000000000000000000000000000000000000000000000000000000000000000000000000000000000000000000000000000000000000000000000000000000000000033b,
  0x100000000000000000000000000000000000000000000000000000000000000000000000000000000000000000000000000000000000000000000000000000000000000000000000000000000000000033c,
  0x10000000000000000000000000000000000000000000000000000000000000000000000000000000000000000000000000000000000000000000000000000000000000000000000000000000000000000000000033d,
  0x1000000000000000000000000000000000000000000000000000000000000000000000000000000000000000000000000000000000000000000000000000000000000000000000000000000000000000000000000000000033e,
  0x100000000000000000000000000000000000000000000000000000000000000000000000000000000000000000000000000000000000000000000000000000000000000000000000000000000000000000000000000000000000000033f,
  0x100000000000000000000000000000000000000000000000000000000000000000000000000000000000000000000000000000000000000000000000000000000000000000000000000000000000000000000000000000000000000000000000340,
  0x10000000000000000000000000000000000000000000000000000000000000000000000000000000000000000000000000000000000000000000000000000000000000000000000000000000000000000000000000000000000000000000000000000000341,
  0x1000000000000000000000000000000000000000000000000000000000000000000000000000000000000000000000000000000000000000000000000000000000000000000000000000000000000000000000000000000000000000000000000000000000000000342,
  0x100000000000000000000000000000000000000000000000000000000000000000000000000000000000000000000000000000000000000000000000000000000000000000000000000000000000000000000000000000000000000000000000000000000000000000000000343,
  0x10000000000000000000000000000000000000000000000000000000000000000000000000000000000000000000000000000000000000000000000000000000000000000000000000000000000000000000000000000000000000000000000000000000000000000000000000000000344,
  0x1000000000000000000000000000000000000000000000000000000000000000000000000000000000000000000000000000000000000000000000000000000000000000000000000000000000000000000000000000000000000000000000000000000000000000000000000000000000000000345,
  0x10000000000000000000000000000000000000000000000000000000000000000000000000000000000000000000000000000000000000000000000000000000000000000000000000000000000000000000000000000000000000000000000000000000000000000000000000000000346,
  0x100000000000000000000000000000000000000000000000000000000000000000000000000000000000000000000000000000000000000000000000000000000000000000000000000000000000000000000000000000000000000000000000000000000000000000000000347,
  0x1000000000000000000000000000000000000000000000000000000000000000000000000000000000000000000000000000000000000000000000000000000000000000000000000000000000000000000000000000000000000000000000000000000000000000348,
  0x10000000000000000000000000000000000000000000000000000000000000000000000000000000000000000000000000000000000000000000000000000000000000000000000000000000000000000000000000000000000000000000000000000000349,
  0x10000000000000000000000000000000000000000000000000000000000000000000000000000000000000000000000000000000000000000000000000000000000000000000000000000000000000000000000000000000000000000000000034a,
  0x100000000000000000000000000000000000000000000000000000000000000000000000000000000000000000000000000000000000000000000000000000000000000000000000000000000000000000000000000000000000000034b,
  0x1000000000000000000000000000000000000000000000000000000000000000000000000000000000000000000000000000000000000000000000000000000000000000000000000000000000000000000000000000000034c,
  0x10000000000000000000000000000000000000000000000000000000000000000000000000000000000000000000000000000000000000000000000000000000000000000000000000000000000000000000000034d,
  0x100000000000000000000000000000000000000000000000000000000000000000000000000000000000000000000000000000000000000000000000000000000000000000000000000000000000000034e,
  0x1000000000000000000000000000000000000000000000000000000000000000000000000000000000000000000000000000000000000000000000000000000000000000000000000000000034f,
  0x100000000000000000000000000000000000000000000000000000000000000000000000000000000000000000000000000000000000000000000000000000000000000000000000350,
  0x1000000000000000000000000000000000000000000000000000000000000000000000000000000000000000000000000000000000000000000000000000000000000000351,
  0x10000000000000000000000000000000000000000000000000000000000000000000000000000000000000000000000000000000000000000000000000000000352,
  0x100000000000000000000000000000000000000000000000000000000000000000000000000000000000000000000000000000000000000000000000353,
  0x1000000000000000000000000000000000000000000000000000000000000000000000000000000000000000000000000000000000000000354,
  0x10000000000000000000000000000000000000000000000000000000000000000000000000000000000000000000000000000000355,
  0x1000000000000000000000000000000000000000000000000000000000000000000000000000000000000000000000000000000000000000356,
  0x100000000000000000000000000000000000000000000000000000000000000000000000000000000000000000000000000000000000000000000000357,
  0x10000000000000000000000000000000000000000000000000000000000000000000000000000000000000000000000000000000000000000000000000000000358,
  0x1000000000000000000000000000000000000000000000000000000000000000000000000000000000000000000000000000000000000000000000000000000000000000359,
  0x10000000000000000000000000000000000000000000000000000000000000000000000000000000000000000000000000000000000000000000000000000000000000000000000035a,
  0x1000000000000000000000000000000000000000000000000000000000000000000000000000000000000000000000000000000000000000000000000000000000000000000000000000000035b,
  0x100000000000000000000000000000000000000000000000000000000000000000000000000000000000000000000000000000000000000000000000000000000000000000000000000000000000000035c,
  0x10000000000000000000000000000000000000000000000000000000000000000000000000000000000000000000000000000000000000000000000000000000000000000000000000000000000000000000000035d,
  0x1000000000000000000000000000000000000000000000000000000000000000000000000000000000000000000000000000000000000000000000000000000000000000000000000000000000000000000000000000000035e,
  0x100000000000000000000000000000000000000000000000000000000000000000000000000000000000000000000000000000000000000000000000000000000000000000000000000000000000000000000000000000000000000035f,
  0x100000000000000000000000000000000000000000000000000000000000000000000000000000000000000000000000000000000000000000000000000000000000000000000000000000000000000000000000000000000000000000000000360,
  0x10000000000000000000000000000000000000000000000000000000000000000000000000000000000000000000000000000000000000000000000000000000000000000000000000000000000000000000000000000000000000000000000000000000361,
  0x1000000000000000000000000000000000000000000000000000000000000000000000000000000000000000000000000000000000000000000000000000000000000000000000000000000000000000000000000000000000000000000000000000000000000000362,
  0x100000000000000000000000000000000000000000000000000000000000000000000000000000000000000000000000000000000000000000000000000000000000000000000000000000000000000000000000000000000000000000000000000000000000000000000000363,
  0x10000000000000000000000000000000000000000000000000000000000000000000000000000000000000000000000000000000000000000000000000000000000000000000000000000000000000000000000000000000000000000000000000000000000000000000000000000000364,
  0x1000000000000000000000000000000000000000000000000000000000000000000000000000000000000000000000000000000000000000000000000000000000000000000000000000000000000000000000000000000000000000000000000000000000000000000000000000000000000000365,
  0x10000000000000000000000000000000000000000000000000000000000000000000000000000000000000000000000000000000366,
  0x1000000000000000000000000000000000000000000000000000000000000000000000000000000000000000000000000000000000000000367,
  0x100000000000000000000000000000000000000000000000000000000000000000000000000000000000000000000000000000000000000000000000368,
  0x10000000000000000000000000000000000000000000000000000000000000000000000000000000000000000000000000000000000000000000000000000000369,
  0x100000000000000000000000000000000000000000000000000000000000000000000000000000000000000000000000000000000000000000000000000000000000000036a,
  0x10000000000000000000000000000000000000000000000000000000000000000000000000000000000000000000000000000000000000000000000000000000000000000000000036b,
  0x1000000000000000000000000000000000000000000000000000000000000000000000000000000000000000000000000000000000000000000000000000000000000000000000000000000036c,
  0x100000000000000000000000000000000000000000000000000000000000000000000000000000000000000000000000000000000000000000000000000000000000000000000000000000000000000036d,
  0x10000000000000000000000000000000000000000000000000000000000000000000000000000000000000000000000000000000000000000000000000000000000000000000000000000000000000000000000036e,
  0x1000000000000000000000000000000000000000000000000000000000000000000000000000000000000000000000000000000000000000000000000000000000000000000000000000000000000000000000000000000036f,
  0x1000000000000000000000000000000000000000000000000000000000000000000000000000000000000000000000000000000000000000000000000000000000000000000000000000000000000000000000000000000000000000370,
  0x100000000000000000000000000000000000000000000000000000000000000000000000000000000000000000000000000000000000000000000000000000000000000000000000000000000000000000000000000000000000000000000000371,
  0x10000000000000000000000000000000000000000000000000000000000000000000000000000000000000000000000000000000000000000000000000000000000000000000000000000000000000000000000000000000000000000000000000000000372,
  0x1000000000000000000000000000000000000000000000000000000000000000000000000000000000000000000000000000000000000000000000000000000000000000000000000000000000000000000000000000000000000000000000000000000000000000373,
  0x100000000000000000000000000000000000000000000000000000000000000000000000000000000000000000000000000000000000000000000000000000000000000000000000000000000000000000000000000000000000000000000000000000000000000000000000374,
  0x10000000000000000000000000000000000000000000000000000000000000000000000000000000000000000000000000000000000000000000000000000000000000000000000000000000000000000000000000000000000000000000000000000000000000000000000000000000375,
  0x1000000000000000000000000000000000000000000000000000000000000000000000000000000000000000000000000000000000000000000000000000000000000000000000000000000000000000000000000000000000000000000000000000000000000000000000000000000000000000376,
  0x10000000000000000000000000000000000000000000000000000000000000000000000000000000000000000000000000000000000000000000000000000000000000000000000000000000000000000000000000000000000000000000000000000000000000000000000000000000378,
  0x10000000000000000000000000000000000000000000000000000000000000000000000000000000000000000000000000000000379,
  0x1000000000000000000000000000000000000000000000000000000000000000000000000000000000000000000000000000005037a,
  0x1000000000000000000000000000000000000000000000000000000000000000000000000000000000000000000000000000000037a,
  0x100000000000000000000000000000000000000000000000000000000000000000000000000000000000000000000000000000000000000037b,
  0x10000000000000000000000000000000000000000000000000000000000000000000000000000000000000000000000000000000000000000000000037c,
  0x1000000000000000000000000000000000000000000000000000000000000000000000000000000000000000000000000000000000000000000000000000000037d,
  0x100000000000000000000000000000000000000000000000000000000000000000000000000000000000000000000000000000000000000000000000000000000000000037e,
  0x10000000000000000000000000000000000000000000000000000000000000000000000000000000000000000000000000000000000000000000000000000000000000000000000037f,
  0x10000000000000000000000000000000000000000000000000000000000000000000000000000000000000000000000000000000000000000000000000000000000000000000000000000000380,
  0x1000000000000000000000000000000000000000000000000000000000000000000000000000000000000000000000000000000000000000000000000000000000000000000000000000000000000000381,
  0x100000000000000000000000000000000000000000000000000000000000000000000000000000000000000000000000000000000000000000000000000000000000000000000000000000000000000000000000382,
  0x10000000000000000000000000000000000000000000000000000000000000000000000000000000000000000000000000000000000000000000000000000000000000000000000000000000000000000000000000000000383,
  0x1000000000000000000000000000000000000000000000000000000000000000000000000000000000000000000000000000000000000000000000000000000000000000000000000000000000000000000000000000000000000000384,
  0x100000000000000000000000000000000000000000000000000000000000000000000000000000000000000000000000000000000000000000000000000000000000000000000000000000000000000000000000000000000000000000000000385,
  0x10000000000000000000000000000000000000000000000000000000000000000000000000000000000000000000000000000000000000000000000000000000000000000000000000000000000000000000000000000000000000000000000000000000386,
  0x1000000000000000000000000000000000000000000000000000000000000000000000000000000000000000000000000000000000000000000000000000000000000000000000000000000000000000000000000000000000000000000000000000000000000000387,
  0x100000000000000000000000000000000000000000000000000000000000000000000000000000000000000000000000000000000000000000000000000000000000000000000000000000000000000000000000000000000000000000000000000000000000000000000000388,
  0x10000000000000000000000000000000000000000000000000000000000000000000000000000000000000000000000000000000000000000000000000000000000000000000000000000000000000000000000000000000000000000000000000000000000000000000000000000000389,
  0x100000000000000000000000000000000000000000000000000000000000000000000000000000000000000000000000000000000000000000000000000000000000000000000000000000000000000000000000000000000000000000000000000000000000000000000000000000000000000038a,
  0x10000000000000000000000000000000000000000000000000000000000000000000000000000000000000000000000000000000000000000000000000000000000000000000000000000000000000000000000000000000000000000000000000000000000000000000000000000000000000000000000038b,
  0x100000000000000000000000000000000000000000000000000000000000000000000000000000000000000000000000000000000000000000000000000000000000000000000000000000000000000000000000000000000000000000000000000000000000000000000000000000000000000038c,
  0x1000000000000000000000000000000000000000000000000000000000000000000000000000000000000000000000000000000000000000000000000000000000000000000000000000000000000000000000000000000000000000000000000000000000000000000000000000000038d,
  0x10000000000000000000000000000000000000000000000000000000000000000000000000000000000000000000000000000000000000000000000000000000000000000000000000000000000000000000000000000000000000000000000000000000000000000000000038e,
  0x100000000000000000000000000000000000000000000000000000000000000000000000000000000000000000000000000000000000000000000000000000000000000000000000000000000000000000000000000000000000000000000000000000000000000038f,
  0x10000000000000000000000000000000000000000000000000000000000000000000000000000000000000000000000000000000000000000000000000000000000000000000000000000000000000000000000000000000000000000000000000000000390,
  0x100000000000000000000000000000000000000000000000000000000000000000000000000000000000000000000000000000000000000000000000000000000000000000000000000000000000000000000000000000000000000000000000391,
  0x1000000000000000000000000000000000000000000000000000000000000000000000000000000000000000000000000000000000000000000000000000000000000000000000000000000000000000000000000000000000000000392,
  0x10000000000000000000000000000000000000000000000000000000000000000000000000000000000000000000000000000000000000000000000000000000000000000000000000000000000000000000000000000000393,
  0x100000000000000000000000000000000000000000000000000000000000000000000000000000000000000000000000000000000000000000000000000000000000000000000000000000000000000000000000394,
  0x1000000000000000000000000000000000000000000000000000000000000000000000000000000000000000000000000000000000000000000000000000000000000000000000000000000000000000395,
  0x10000000000000000000000000000000000000000000000000000000000000000000000000000000000000000000000000000000000000000000000000000000000000000000000000000000396,
  0x100000000000000000000000000000000000000000000000000000000000000000000000000000000000000000000000000000000000000000000000000000000000000000000000397,
  0x1000000000000000000000000000000000000000000000000000000000000000000000000000000000000000000000000000000000000000000000000000000000000000398,
  0x10000000000000000000000000000000000000000000000000000000000000000000000000000000000000000000000000000000000000000000000000000000399,
  0x10000000000000000000000000000000000000000000000000000000000000000000000000000000000000000000000000000000000000000000000039a,
  0x100000000000000000000000000000000000000000000000000000000000000000000000000000000000000000000000000000000000000039b,
  0x10000000000000000000000000000000000000000000000000000000000000000000000000000000000000000000000000000000000000000000000039c,
  0x1000000000000000000000000000000000000000000000000000000000000000000000000000000000000000000000000000000000000000000000000000000039d,
  0x100000000000000000000000000000000000000000000000000000000000000000000000000000000000000000000000000000000000000000000000000000000000000039e,
  0x10000000000000000000000000000000000000000000000000000000000000000000000000000000000000000000000000000000000000000000000000000000000000000000000039f,
  0x100000000000000000000000000000000000000000000000000000000000000000000000000000000000000000000000000000000000000000000000000000000000000000000000000000003a0,
  0x10000000000000000000000000000000000000000000000000000000000000000000000000000000000000000000000000000000000000000000000000000000000000000000000000000000000000003a1,
  0x1000000000000000000000000000000000000000000000000000000000000000000000000000000000000000000000000000000000000000000000000000000000000000000000000000000000000000000000003a2,
  0x100000000000000000000000000000000000000000000000000000000000000000000000000000000000000000000000000000000000000000000000000000000000000000000000000000000000000000000000000000003a3,
  0x10000000000000000000000000000000000000000000000000000000000000000000000000000000000000000000000000000000000000000000000000000000000000000000000000000000000000000000000000000000000000003a4,
  0x1000000000000000000000000000000000000000000000000000000000000000000000000000000000000000000000000000000000000000000000000000000000000000000000000000000000000000000000000000000000000000000000003a5,
  0x100000000000000000000000000000000000000000000000000000000000000000000000000000000000000000000000000000000000000000000000000000000000000000000000000000000000000000000000000000000000000000000000000000003a6,
  0x10000000000000000000000000000000000000000000000000000000000000000000000000000000000000000000000000000000000000000000000000000000000000000000000000000000000000000000000000000000000000000000000000000000000000003a7,
  0x1000000000000000000000000000000000000000000000000000000000000000000000000000000000000000000000000000000000000000000000000000000000000000000000000000000000000000000000000000000000000000000000000000000000000000000000003a8,
  0x100000000000000000000000000000000000000000000000000000000000000000000000000000000000000000000000000000000000000000000000000000000000000000000000000000000000000000000000000000000000000000000000000000000000000000000000000000003a9,
  0x10000000000000000000000000000000000000000000000000000000000000000000000000000000000000000000000000000000000000000000000000000000000000000000000000000000000000000000000000000000000000000000000000000000000000000000000000000000000000003aa,
  0x1000000000000000000000000000000000000000000000000000000000000000000000000000000000000000000000000000000000000000000000000000000000000000000000000000000000000000000000000000000000000000000000000000000000000000000000000000000000000000000000003ab,
  0x10000000000000000000000000000000000000000000000000000000000000000000000000000000000000000000000000000000000000003ac,
  0x1000000000000000000000000000000000000000000000000000000000000000000000000000000000000000000000000000000000000000000000003ad,
  0x100000000000000000000000000000000000000000000000000000000000000000000000000000000000000000000000000000000000000000000000000000003ae,
  0x10000000000000000000000000000000000000000000000000000000000000000000000000000000000000000000000000000000000000000000000000000000000000003af,
  0x1000000000000000000000000000000000000000000000000000000000000000000000000000000000000000000000000000000000000000000000000000000000000000000000003b0,
  0x100000000000000000000000000000000000000000000000000000000000000000000000000000000000000000000000000000000000000000000000000000000000000000000000000000003b1,
  0x10000000000000000000000000000000000000000000000000000000000000000000000000000000000000000000000000000000000000000000000000000000000000000000000000000000000000003b2,
  0x1000000000000000000000000000000000000000000000000000000000000000000000000000000000000000000000000000000000000000000000000000000000000000000000000000000000000000000000003b3,
  0x100000000000000000000000000000000000000000000000000000000000000000000000000000000000000000000000000000000000000000000000000000000000000000000000000000000000000000000000000000003b4,
  0x10000000000000000000000000000000000000000000000000000000000000000000000000000000000000000000000000000000000000000000000000000000000000000000000000000000000000000000000000000000000000003b5,
  0x1000000000000000000000000000000000000000000000000000000000000000000000000000000000000000000000000000000000000000000000000000000000000000000000000000000000000000000000000000000000000000000000003b6,
  0x100000000000000000000000000000000000000000000000000000000000000000000000000000000000000000000000000000000000000000000000000000000000000000000000000000000000000000000000000000000000000000000000000000003b7,
  0x10000000000000000000000000000000000000000000000000000000000000000000000000000000000000000000000000000000000000000000000000000000000000000000000000000000000000000000000000000000000000000000000000000000000000003b8,
  0x1000000000000000000000000000000000000000000000000000000000000000000000000000000000000000000000000000000000000000000000000000000000000000000000000000000000000000000000000000000000000000000000000000000000000000000000003b9,
  0x100000000000000000000000000000000000000000000000000000000000000000000000000000000000000000000000000000000000000000000000000000000000000000000000000000000000000000000000000000000000000000000000000000000000000000000000000000003ba,
  0x10000000000000000000000000000000000000000000000000000000000000000000000000000000000000000000000000000000000000000000000000000000000000000000000000000000000000000000000000000000000000000000000000000000000000000000000000000000000000003bb,
  0x1000000000000000000000000000000000000000000000000000000000000000000000000000000000000000000000000000000000000000000000000000000000000000000000000000000000000000000000000000000000000000000000000000000000000000000000000000000000000000000000003bc,
  0x10000000000000000000000000000000000000000000000000000000000000000000000000000000000000000000000000000000000000000000000000000000000000000000000000000000000000000000000000000000000000000000000000000000000000000000000000000000000000003be,
  0x10000000000000000000000000000000000000000000000000000000000000000000000000000000000000000000000000000000000000003bf,
  0x10000000000000000000000000000000000000000000000000000000000000000000000000000000000000000000000000000000000000503c0,
  0x10000000000000000000000000000000000000000000000000000000000000000000000000000000000000000000000000000000000000003c0,
  0x1000000000000000000000000000000000000000000000000000000000000000000000000000000000000000000000000000000000000000000000003c1,
  0x100000000000000000000000000000000000000000000000000000000000000000000000000000000000000000000000000000000000000000000000000000003c2,
  0x10000000000000000000000000000000000000000000000000000000000000000000000000000000000000000000000000000000000000000000000000000000000000003c3,
  0x1000000000000000000000000000000000000000000000000000000000000000000000000000000000000000000000000000000000000000000000000000000000000000000000003c4,
  0x100000000000000000000000000000000000000000000000000000000000000000000000000000000000000000000000000000000000000000000000000000000000000000000000000000003c5,
  0x10000000000000000000000000000000000000000000000000000000000000000000000000000000000000000000000000000000000000000000000000000000000000000000000000000000000000003c6,
  0x1000000000000000000000000000000000000000000000000000000000000000000000000000000000000000000000000000000000000000000000000000000000000000000000000000000000000000000000003c7,
  0x100000000000000000000000000000000000000000000000000000000000000000000000000000000000000000000000000000000000000000000000000000000000000000000000000000000000000000000000000000003c8,
  0x10000000000000000000000000000000000000000000000000000000000000000000000000000000000000000000000000000000000000000000000000000000000000000000000000000000000000000000000000000000000000003c9,
  0x1000000000000000000000000000000000000000000000000000000000000000000000000000000000000000000000000000000000000000000000000000000000000000000000000000000000000000000000000000000000000000000000003ca,
  0x100000000000000000000000000000000000000000000000000000000000000000000000000000000000000000000000000000000000000000000000000000000000000000000000000000000000000000000000000000000000000000000000000000003cb,
  0x10000000000000000000000000000000000000000000000000000000000000000000000000000000000000000000000000000000000000000000000000000000000000000000000000000000000000000000000000000000000000000000000000000000000000003cc,
  0x1000000000000000000000000000000000000000000000000000000000000000000000000000000000000000000000000000000000000000000000000000000000000000000000000000000000000000000000000000000000000000000000000000000000000000000000003cd,
  0x100000000000000000000000000000000000000000000000000000000000000000000000000000000000000000000000000000000000000000000000000000000000000000000000000000000000000000000000000000000000000000000000000000000000000000000000000000003ce,
  0x10000000000000000000000000000000000000000000000000000000000000000000000000000000000000000000000000000000000000000000000000000000000000000000000000000000000000000000000000000000000000000000000000000000000000000000000000000000000000003cf,
  0x1000000000000000000000000000000000000000000000000000000000000000000000000000000000000000000000000000000000000000000000000000000000000000000000000000000000000000000000000000000000000000000000000000000000000000000000000000000000000000000000003d0,
  0x100000000000000000000000000000000000000000000000000000000000000000000000000000000000000000000000000000000000000000000000000000000000000000000000000000000000000000000000000000000000000000000000000000000000000000000000000000000000000000000000000000003d1,
  0x1000000000000000000000000000000000000000000000000000000000000000000000000000000000000000000000000000000000000000000000000000000000000000000000000000000000000000000000000000000000000000000000000000000000000000000000000000000000000000000000003d2,
  0x10000000000000000000000000000000000000000000000000000000000000000000000000000000000000000000000000000000000000000000000000000000000000000000000000000000000000000000000000000000000000000000000000000000000000000000000000000000000000003d3,
  0x100000000000000000000000000000000000000000000000000000000000000000000000000000000000000000000000000000000000000000000000000000000000000000000000000000000000000000000000000000000000000000000000000000000000000000000000000000003d4,
  0x1000000000000000000000000000000000000000000000000000000000000000000000000000000000000000000000000000000000000000000000000000000000000000000000000000000000000000000000000000000000000000000000000000000000000000000000003d5,
  0x10000000000000000000000000000000000000000000000000000000000000000000000000000000000000000000000000000000000000000000000000000000000000000000000000000000000000000000000000000000000000000000000000000000000000003d6,
  0x100000000000000000000000000000000000000000000000000000000000000000000000000000000000000000000000000000000000000000000000000000000000000000000000000000000000000000000000000000000000000000000000000000003d7,
  0x1000000000000000000000000000000000000000000000000000000000000000000000000000000000000000000000000000000000000000000000000000000000000000000000000000000000000000000000000000000000000000000000003d8,
  0x10000000000000000000000000000000000000000000000000000000000000000000000000000000000000000000000000000000000000000000000000000000000000000000000000000000000000000000000000000000000000003d9,
  0x100000000000000000000000000000000000000000000000000000000000000000000000000000000000000000000000000000000000000000000000000000000000000000000000000000000000000000000000000000003da,
  0x1000000000000000000000000000000000000000000000000000000000000000000000000000000000000000000000000000000000000000000000000000000000000000000000000000000000000000000000003db,
  0x10000000000000000000000000000000000000000000000000000000000000000000000000000000000000000000000000000000000000000000000000000000000000000000000000000000000000003dc,
  0x100000000000000000000000000000000000000000000000000000000000000000000000000000000000000000000000000000000000000000000000000000000000000000000000000000003dd,
  0x1000000000000000000000000000000000000000000000000000000000000000000000000000000000000000000000000000000000000000000000000000000000000000000000003de,
  0x10000000000000000000000000000000000000000000000000000000000000000000000000000000000000000000000000000000000000000000000000000000000000003df,
  0x100000000000000000000000000000000000000000000000000000000000000000000000000000000000000000000000000000000000000000000000000000003e0,
  0x1000000000000000000000000000000000000000000000000000000000000000000000000000000000000000000000000000000000000000000000003e1,
  0x100000000000000000000000000000000000000000000000000000000000000000000000000000000000000000000000000000000000000000000000000000003e2,
  0x10000000000000000000000000000000000000000000000000000000000000000000000000000000000000000000000000000000000000000000000000000000000000003e3,
  0x1000000000000000000000000000000000000000000000000000000000000000000000000000000000000000000000000000000000000000000000000000000000000000000000003e4,
  0x100000000000000000000000000000000000000000000000000000000000000000000000000000000000000000000000000000000000000000000000000000000000000000000000000000003e5,
  0x10000000000000000000000000000000000000000000000000000000000000000000000000000000000000000000000000000000000000000000000000000000000000000000000000000000000000003e6,
  0x1000000000000000000000000000000000000000000000000000000000000000000000000000000000000000000000000000000000000000000000000000000000000000000000000000000000000000000000003e7,
  0x100000000000000000000000000000000000000000000000000000000000000000000000000000000000000000000000000000000000000000000000000000000000000000000000000000000000000000000000000000003e8,
  0x10000000000000000000000000000000000000000000000000000000000000000000000000000000000000000000000000000000000000000000000000000000000000000000000000000000000000000000000000000000000000003e9,
  0x1000000000000000000000000000000000000000000000000000000000000000000000000000000000000000000000000000000000000000000000000000000000000000000000000000000000000000000000000000000000000000000000003ea,
  0x100000000000000000000000000000000000000000000000000000000000000000000000000000000000000000000000000000000000000000000000000000000000000000000000000000000000000000000000000000000000000000000000000000003eb,
  0x10000000000000000000000000000000000000000000000000000000000000000000000000000000000000000000000000000000000000000000000000000000000000000000000000000000000000000000000000000000000000000000000000000000000000003ec,
  0x1000000000000000000000000000000000000000000000000000000000000000000000000000000000000000000000000000000000000000000000000000000000000000000000000000000000000000000000000000000000000000000000000000000000000000000000003ed,
  0x100000000000000000000000000000000000000000000000000000000000000000000000000000000000000000000000000000000000000000000000000000000000000000000000000000000000000000000000000000000000000000000000000000000000000000000000000000003ee,
  0x10000000000000000000000000000000000000000000000000000000000000000000000000000000000000000000000000000000000000000000000000000000000000000000000000000000000000000000000000000000000000000000000000000000000000000000000000000000000000003ef,
  0x1000000000000000000000000000000000000000000000000000000000000000000000000000000000000000000000000000000000000000000000000000000000000000000000000000000000000000000000000000000000000000000000000000000000000000000000000000000000000000000000003f0,
  0x100000000000000000000000000000000000000000000000000000000000000000000000000000000000000000000000000000000000000000000000000000000000000000000000000000000000000000000000000000000000000000000000000000000000000000000000000000000000000000000000000000003f1,
  0x1000000000000000000000000000000000000000000000000000000000000000000000000000000000000000000000000000000000000000000000003f2,
  0x100000000000000000000000000000000000000000000000000000000000000000000000000000000000000000000000000000000000000000000000000000003f3,
  0x10000000000000000000000000000000000000000000000000000000000000000000000000000000000000000000000000000000000000000000000000000000000000003f4,
  0x1000000000000000000000000000000000000000000000000000000000000000000000000000000000000000000000000000000000000000000000000000000000000000000000003f5,
  0x100000000000000000000000000000000000000000000000000000000000000000000000000000000000000000000000000000000000000000000000000000000000000000000000000000003f6,
  0x10000000000000000000000000000000000000000000000000000000000000000000000000000000000000000000000000000000000000000000000000000000000000000000000000000000000000003f7,
  0x1000000000000000000000000000000000000000000000000000000000000000000000000000000000000000000000000000000000000000000000000000000000000000000000000000000000000000000000003f8,
  0x100000000000000000000000000000000000000000000000000000000000000000000000000000000000000000000000000000000000000000000000000000000000000000000000000000000000000000000000000000003f9,
  0x10000000000000000000000000000000000000000000000000000000000000000000000000000000000000000000000000000000000000000000000000000000000000000000000000000000000000000000000000000000000000003fa,
  0x1000000000000000000000000000000000000000000000000000000000000000000000000000000000000000000000000000000000000000000000000000000000000000000000000000000000000000000000000000000000000000000000003fb,
  0x100000000000000000000000000000000000000000000000000000000000000000000000000000000000000000000000000000000000000000000000000000000000000000000000000000000000000000000000000000000000000000000000000000003fc,
  0x10000000000000000000000000000000000000000000000000000000000000000000000000000000000000000000000000000000000000000000000000000000000000000000000000000000000000000000000000000000000000000000000000000000000000003fd,
  0x1000000000000000000000000000000000000000000000000000000000000000000000000000000000000000000000000000000000000000000000000000000000000000000000000000000000000000000000000000000000000000000000000000000000000000000000003fe,
  0x100000000000000000000000000000000000000000000000000000000000000000000000000000000000000000000000000000000000000000000000000000000000000000000000000000000000000000000000000000000000000000000000000000000000000000000000000000003ff,
  0x1000000000000000000000000000000000000000000000000000000000000000000000000000000000000000000000000000000000000000000000000000000000000000000000000000000000000000000000000000000000000000000000000000000000000000000000000000000000000000400,
  0x100000000000000000000000000000000000000000000000000000000000000000000000000000000000000000000000000000000000000000000000000000000000000000000000000000000000000000000000000000000000000000000000000000000000000000000000000000000000000000000000401,
  0x10000000000000000000000000000000000000000000000000000000000000000000000000000000000000000000000000000000000000000000000000000000000000000000000000000000000000000000000000000000000000000000000000000000000000000000000000000000000000000000000000000000402,
  0x100000000000000000000000000000000000000000000000000000000000000000000000000000000000000000000000000000000000000000000000000000000000000000000000000000000000000000000000000000000000000000000000000000000000000000000000000000000000000000000000404,
  0x100000000000000000000000000000000000000000000000000000000000000000000000000000000000000000000000000000000000000000000000405,
  0x100000000000000000000000000000000000000000000000000000000000000000000000000000000000000000000000000000000000000000000050406,
  0x100000000000000000000000000000000000000000000000000000000000000000000000000000000000000000000000000000000000000000000000406,
  0x10000000000000000000000000000000000000000000000000000000000000000000000000000000000000000000000000000000000000000000000000000000407,
  0x1000000000000000000000000000000000000000000000000000000000000000000000000000000000000000000000000000000000000000000000000000000000000000408,
  0x100000000000000000000000000000000000000000000000000000000000000000000000000000000000000000000000000000000000000000000000000000000000000000000000409,
  0x1000000000000000000000000000000000000000000000000000000000000000000000000000000000000000000000000000000000000000000000000000000000000000000000000000000040a,
  0x100000000000000000000000000000000000000000000000000000000000000000000000000000000000000000000000000000000000000000000000000000000000000000000000000000000000000040b,
  0x10000000000000000000000000000000000000000000000000000000000000000000000000000000000000000000000000000000000000000000000000000000000000000000000000000000000000000000000040c,
  0x1000000000000000000000000000000000000000000000000000000000000000000000000000000000000000000000000000000000000000000000000000000000000000000000000000000000000000000000000000000040d,
  0x100000000000000000000000000000000000000000000000000000000000000000000000000000000000000000000000000000000000000000000000000000000000000000000000000000000000000000000000000000000000000040e,
  0x10000000000000000000000000000000000000000000000000000000000000000000000000000000000000000000000000000000000000000000000000000000000000000000000000000000000000000000000000000000000000000000000040f,
  0x10000000000000000000000000000000000000000000000000000000000000000000000000000000000000000000000000000000000000000000000000000000000000000000000000000000000000000000000000000000000000000000000000000000410,
  0x1000000000000000000000000000000000000000000000000000000000000000000000000000000000000000000000000000000000000000000000000000000000000000000000000000000000000000000000000000000000000000000000000000000000000000411,
  0x100000000000000000000000000000000000000000000000000000000000000000000000000000000000000000000000000000000000000000000000000000000000000000000000000000000000000000000000000000000000000000000000000000000000000000000000412,
  0x10000000000000000000000000000000000000000000000000000000000000000000000000000000000000000000000000000000000000000000000000000000000000000000000000000000000000000000000000000000000000000000000000000000000000000000000000000000413,
  0x1000000000000000000000000000000000000000000000000000000000000000000000000000000000000000000000000000000000000000000000000000000000000000000000000000000000000000000000000000000000000000000000000000000000000000000000000000000000000000414,
  0x100000000000000000000000000000000000000000000000000000000000000000000000000000000000000000000000000000000000000000000000000000000000000000000000000000000000000000000000000000000000000000000000000000000000000000000000000000000000000000000000415,
  0x10000000000000000000000000000000000000000000000000000000000000000000000000000000000000000000000000000000000000000000000000000000000000000000000000000000000000000000000000000000000000000000000000000000000000000000000000000000000000000000000000000000416,
  0x1000000000000000000000000000000000000000000000000000000000000000000000000000000000000000000000000000000000000000000000000000000000000000000000000000000000000000000000000000000000000000000000000000000000000000000000000000000000000000000000000000000000000000417,
  0x10000000000000000000000000000000000000000000000000000000000000000000000000000000000000000000000000000000000000000000000000000000000000000000000000000000000000000000000000000000000000000000000000000000000000000000000000000000000000000000000000000000418,
  0x100000000000000000000000000000000000000000000000000000000000000000000000000000000000000000000000000000000000000000000000000000000000000000000000000000000000000000000000000000000000000000000000000000000000000000000000000000000000000000000000419,
  0x100000000000000000000000000000000000000000000000000000000000000000000000000000000000000000000000000000000000000000000000000000000000000000000000000000000000000000000000000000000000000000000000000000000000000000000000000000000000000041a,
  0x1000000000000000000000000000000000000000000000000000000000000000000000000000000000000000000000000000000000000000000000000000000000000000000000000000000000000000000000000000000000000000000000000000000000000000000000000000000041b,
  0x10000000000000000000000000000000000000000000000000000000000000000000000000000000000000000000000000000000000000000000000000000000000000000000000000000000000000000000000000000000000000000000000000000000000000000000000041c,
  0x100000000000000000000000000000000000000000000000000000000000000000000000000000000000000000000000000000000000000000000000000000000000000000000000000000000000000000000000000000000000000000000000000000000000000041d,
  0x1000000000000000000000000000000000000000000000000000000000000000000000000000000000000000000000000000000000000000000000000000000000000000000000000000000000000000000000000000000000000000000000000000000041e,
  0x10000000000000000000000000000000000000000000000000000000000000000000000000000000000000000000000000000000000000000000000000000000000000000000000000000000000000000000000000000000000000000000000041f,
  0x1000000000000000000000000000000000000000000000000000000000000000000000000000000000000000000000000000000000000000000000000000000000000000000000000000000000000000000000000000000000000000420,
  0x10000000000000000000000000000000000000000000000000000000000000000000000000000000000000000000000000000000000000000000000000000000000000000000000000000000000000000000000000000000421,
  0x100000000000000000000000000000000000000000000000000000000000000000000000000000000000000000000000000000000000000000000000000000000000000000000000000000000000000000000000422,
  0x1000000000000000000000000000000000000000000000000000000000000000000000000000000000000000000000000000000000000000000000000000000000000000000000000000000000000000423,
  0x10000000000000000000000000000000000000000000000000000000000000000000000000000000000000000000000000000000000000000000000000000000000000000000000000000000424,
  0x100000000000000000000000000000000000000000000000000000000000000000000000000000000000000000000000000000000000000000000000000000000000000000000000425,
  0x1000000000000000000000000000000000000000000000000000000000000000000000000000000000000000000000000000000000000000000000000000000000000000426,
  0x10000000000000000000000000000000000000000000000000000000000000000000000000000000000000000000000000000000000000000000000000000000427,
  0x1000000000000000000000000000000000000000000000000000000000000000000000000000000000000000000000000000000000000000000000000000000000000000428,
  0x100000000000000000000000000000000000000000000000000000000000000000000000000000000000000000000000000000000000000000000000000000000000000000000000429,
  0x1000000000000000000000000000000000000000000000000000000000000000000000000000000000000000000000000000000000000000000000000000000000000000000000000000000042a,
  0x100000000000000000000000000000000000000000000000000000000000000000000000000000000000000000000000000000000000000000000000000000000000000000000000000000000000000042b,
  0x10000000000000000000000000000000000000000000000000000000000000000000000000000000000000000000000000000000000000000000000000000000000000000000000000000000000000000000000042c,
  0x1000000000000000000000000000000000000000000000000000000000000000000000000000000000000000000000000000000000000000000000000000000000000000000000000000000000000000000000000000000042d,
  0x100000000000000000000000000000000000000000000000000000000000000000000000000000000000000000000000000000000000000000000000000000000000000000000000000000000000000000000000000000000000000042e,
  0x10000000000000000000000000000000000000000000000000000000000000000000000000000000000000000000000000000000000000000000000000000000000000000000000000000000000000000000000000000000000000000000000042f,
  0x10000000000000000000000000000000000000000000000000000000000000000000000000000000000000000000000000000000000000000000000000000000000000000000000000000000000000000000000000000000000000000000000000000000430,
  0x1000000000000000000000000000000000000000000000000000000000000000000000000000000000000000000000000000000000000000000000000000000000000000000000000000000000000000000000000000000000000000000000000000000000000000431,
  0x100000000000000000000000000000000000000000000000000000000000000000000000000000000000000000000000000000000000000000000000000000000000000000000000000000000000000000000000000000000000000000000000000000000000000000000000432,
  0x10000000000000000000000000000000000000000000000000000000000000000000000000000000000000000000000000000000000000000000000000000000000000000000000000000000000000000000000000000000000000000000000000000000000000000000000000000000433,
  0x1000000000000000000000000000000000000000000000000000000000000000000000000000000000000000000000000000000000000000000000000000000000000000000000000000000000000000000000000000000000000000000000000000000000000000000000000000000000000000434,
  0x100000000000000000000000000000000000000000000000000000000000000000000000000000000000000000000000000000000000000000000000000000000000000000000000000000000000000000000000000000000000000000000000000000000000000000000000000000000000000000000000435,
  0x10000000000000000000000000000000000000000000000000000000000000000000000000000000000000000000000000000000000000000000000000000000000000000000000000000000000000000000000000000000000000000000000000000000000000000000000000000000000000000000000000000000436,
  0x1000000000000000000000000000000000000000000000000000000000000000000000000000000000000000000000000000000000000000000000000000000000000000000000000000000000000000000000000000000000000000000000000000000000000000000000000000000000000000000000000000000000000000437,
  0x10000000000000000000000000000000000000000000000000000000000000000000000000000000000000000000000000000000000000000000000000000000438,
  0x1000000000000000000000000000000000000000000000000000000000000000000000000000000000000000000000000000000000000000000000000000000000000000439,
  0x10000000000000000000000000000000000000000000000000000000000000000000000000000000000000000000000000000000000000000000000000000000000000000000000043a,
  0x1000000000000000000000000000000000000000000000000000000000000000000000000000000000000000000000000000000000000000000000000000000000000000000000000000000043b,
  0x100000000000000000000000000000000000000000000000000000000000000000000000000000000000000000000000000000000000000000000000000000000000000000000000000000000000000043c,
  0x10000000000000000000000000000000000000000000000000000000000000000000000000000000000000000000000000000000000000000000000000000000000000000000000000000000000000000000000043d,
  0x1000000000000000000000000000000000000000000000000000000000000000000000000000000000000000000000000000000000000000000000000000000000000000000000000000000000000000000000000000000043e,
  0x100000000000000000000000000000000000000000000000000000000000000000000000000000000000000000000000000000000000000000000000000000000000000000000000000000000000000000000000000000000000000043f,
  0x100000000000000000000000000000000000000000000000000000000000000000000000000000000000000000000000000000000000000000000000000000000000000000000000000000000000000000000000000000000000000000000000440,
  0x10000000000000000000000000000000000000000000000000000000000000000000000000000000000000000000000000000000000000000000000000000000000000000000000000000000000000000000000000000000000000000000000000000000441,
  0x1000000000000000000000000000000000000000000000000000000000000000000000000000000000000000000000000000000000000000000000000000000000000000000000000000000000000000000000000000000000000000000000000000000000000000442,
  0x100000000000000000000000000000000000000000000000000000000000000000000000000000000000000000000000000000000000000000000000000000000000000000000000000000000000000000000000000000000000000000000000000000000000000000000000443,
  0x10000000000000000000000000000000000000000000000000000000000000000000000000000000000000000000000000000000000000000000000000000000000000000000000000000000000000000000000000000000000000000000000000000000000000000000000000000000444,
  0x1000000000000000000000000000000000000000000000000000000000000000000000000000000000000000000000000000000000000000000000000000000000000000000000000000000000000000000000000000000000000000000000000000000000000000000000000000000000000000445,
  0x100000000000000000000000000000000000000000000000000000000000000000000000000000000000000000000000000000000000000000000000000000000000000000000000000000000000000000000000000000000000000000000000000000000000000000000000000000000000000000000000446,
  0x10000000000000000000000000000000000000000000000000000000000000000000000000000000000000000000000000000000000000000000000000000000000000000000000000000000000000000000000000000000000000000000000000000000000000000000000000000000000000000000000000000000447,
  0x1000000000000000000000000000000000000000000000000000000000000000000000000000000000000000000000000000000000000000000000000000000000000000000000000000000000000000000000000000000000000000000000000000000000000000000000000000000000000000000000000000000000000000448,
  0x1000000000000000000000000000000000000000000000000000000000000000000000000000000000000000000000000000000000000000000000000000000000000000000000000000000000000000000000000000000000000000000000000000000000000000000000000000000000000000000000000000000044a,
  0x1000000000000000000000000000000000000000000000000000000000000000000000000000000000000000000000000000000000000000000000000000000044b,
  0x1000000000000000000000000000000000000000000000000000000000000000000000000000000000000000000000000000000000000000000000000000005044c,
  0x1000000000000000000000000000000000000000000000000000000000000000000000000000000000000000000000000000000000000000000000000000000044c,
  0x100000000000000000000000000000000000000000000000000000000000000000000000000000000000000000000000000000000000000000000000000000000000000044d,
  0x10000000000000000000000000000000000000000000000000000000000000000000000000000000000000000000000000000000000000000000000000000000000000000000000044e,
  0x1000000000000000000000000000000000000000000000000000000000000000000000000000000000000000000000000000000000000000000000000000000000000000000000000000000044f,
  0x1000000000000000000000000000000000000000000000000000000000000000000000000000000000000000000000000000000000000000000000000000000000000000000000000000000000000000450,
  0x100000000000000000000000000000000000000000000000000000000000000000000000000000000000000000000000000000000000000000000000000000000000000000000000000000000000000000000000451,
  0x10000000000000000000000000000000000000000000000000000000000000000000000000000000000000000000000000000000000000000000000000000000000000000000000000000000000000000000000000000000452,
  0x1000000000000000000000000000000000000000000000000000000000000000000000000000000000000000000000000000000000000000000000000000000000000000000000000000000000000000000000000000000000000000453,
  0x100000000000000000000000000000000000000000000000000000000000000000000000000000000000000000000000000000000000000000000000000000000000000000000000000000000000000000000000000000000000000000000000454,
  0x10000000000000000000000000000000000000000000000000000000000000000000000000000000000000000000000000000000000000000000000000000000000000000000000000000000000000000000000000000000000000000000000000000000455,
  0x1000000000000000000000000000000000000000000000000000000000000000000000000000000000000000000000000000000000000000000000000000000000000000000000000000000000000000000000000000000000000000000000000000000000000000456,
  0x100000000000000000000000000000000000000000000000000000000000000000000000000000000000000000000000000000000000000000000000000000000000000000000000000000000000000000000000000000000000000000000000000000000000000000000000457,
  0x10000000000000000000000000000000000000000000000000000000000000000000000000000000000000000000000000000000000000000000000000000000000000000000000000000000000000000000000000000000000000000000000000000000000000000000000000000000458,
  0x1000000000000000000000000000000000000000000000000000000000000000000000000000000000000000000000000000000000000000000000000000000000000000000000000000000000000000000000000000000000000000000000000000000000000000000000000000000000000000459,
  0x10000000000000000000000000000000000000000000000000000000000000000000000000000000000000000000000000000000000000000000000000000000000000000000000000000000000000000000000000000000000000000000000000000000000000000000000000000000000000000000000045a,
  0x1000000000000000000000000000000000000000000000000000000000000000000000000000000000000000000000000000000000000000000000000000000000000000000000000000000000000000000000000000000000000000000000000000000000000000000000000000000000000000000000000000000045b,
  0x100000000000000000000000000000000000000000000000000000000000000000000000000000000000000000000000000000000000000000000000000000000000000000000000000000000000000000000000000000000000000000000000000000000000000000000000000000000000000000000000000000000000000045c,
  0x10000000000000000000000000000000000000000000000000000000000000000000000000000000000000000000000000000000000000000000000000000000000000000000000000000000000000000000000000000000000000000000000000000000000000000000000000000000000000000000000000000000000000000000000045d]
  cond := ⟨[.x 2157, .x 2159, .x 2161, .x 2163, .x 2165, .x 2167, .x 2169, .x 2171, .x 2173, .x 2175, .x 2177, .x 2179, .x 2181, .x 2183, .x 2185, .x 2187, .x 2189], [0x88e, 0x890, 0x892, 0x894, 0x896, 0x898, 0x89a, 0x89c, 0x89e, 0x8a0, 0x8a2, 0x8a4, 0x8a6, 0x8a8, 0x8aa, 0x8ac, 0x8ae], 2223,
    [0x1000000045e, 0x100000000000000045f, 0x100000000000000000000000460, 0x10000000000000000000000000000000461,
  0x1000000000000000000000000000000000000000462, 0x100000000000000000000000000000000000000000000000463,
  0x10000000000000000000000000000000000000000000000000000000464, 0x1000000000000000000000000000000000000000000000000000000000000000465,
  0x100000000000000000000000000000000000000000000000000000000000000000000000466,
  0x10000000000000000000000000000000000000000000000000000000000000000000000000000000467,
  0x1000000000000000000000000000000000000000000000000000000000000000000000000000000000000000468,
  0x100000000000000000000000000000000000000000000000000000000000000000000000000000000000000000000000469,
  0x1000000000000000000000000000000000000000000000000000000000000000000000000000000000000000000000000000000046a,
  0x100000000000000000000000000000000000000000000000000000000000000000000000000000000000000000000000000000000000000046b,
  0x10000000000000000000000000000000000000000000000000000000000000000000000000000000000000000000000000000000000000000000000046c,
  0x1000000000000000000000000000000000000000000000000000000000000000000000000000000000000000000000000000000000000000000000000000000046d,
  0x100000000000000000000000000000000000000000000000000000000000000000000000000000000000000000000000000000000000000000000000000000000000000046e],
    [0x1000000045e, 0x100000000000000045f, 0x100000000000000000000000460, 0x10000000000000000000000000000000461,
  0x1000000000000000000000000000000000000000462, 0x100000000000000000000000000000000000000000000000463,
  0x10000000000000000000000000000000000000000000000000000000464, 0x1000000000000000000000000000000000000000000000000000000000000000465,
  0x100000000000000000000000000000000000000000000000000000000000000000000000466,
  0x10000000000000000000000000000000000000000000000000000000000000000000000000000000467,
  0x1000000000000000000000000000000000000000000000000000000000000000000000000000000000000000468,
  0x100000000000000000000000000000000000000000000000000000000000000000000000000000000000000000000000469,
  0x1000000000000000000000000000000000000000000000000000000000000000000000000000000000000000000000000000000046a,
  0x100000000000000000000000000000000000000000000000000000000000000000000000000000000000000000000000000000000000000046b,
  0x10000000000000000000000000000000000000000000000000000000000000000000000000000000000000000000000000000000000000000000000046c,
  0x1000000000000000000000000000000000000000000000000000000000000000000000000000000000000000000000000000000000000000000000000000000046d,
  0x1000000046f, 0x1000000000000000470, 0x100000000000000000000000471, 0x10000000000000000000000000000000472,
  0x1000000000000000000000000000000000000000473, 0x100000000000000000000000000000000000000000000000474,
  0x10000000000000000000000000000000000000000000000000000000475, 0x1000000000000000000000000000000000000000000000000000000000000000476,
  0x100000000000000000000000000000000000000000000000000000000000000000000000477,
  0x10000000000000000000000000000000000000000000000000000000000000000000000000000000478,
  0x1000000000000000000000000000000000000000000000000000000000000000000000000000000000000000479,
  0x10000000000000000000000000000000000000000000000000000000000000000000000000000000000000000000000047a,
  0x1000000000000000000000000000000000000000000000000000000000000000000000000000000000000000000000000000000047b,
  0x100000000000000000000000000000000000000000000000000000000000000000000000000000000000000000000000000000000000000047c,
  0x10000000000000000000000000000000000000000000000000000000000000000000000000000000000000000000000000000000000000000000000047d,
  0x1000000000000000000000000000000000000000000000000000000000000000000000000000000000000000000000000000000000000000000000000000000047e],
    [0x1000000046f, 0x1000000000000000470, 0x100000000000000000000000471, 0x10000000000000000000000000000000472,
  0x1000000000000000000000000000000000000000473, 0x100000000000000000000000000000000000000000000000474,
  0x10000000000000000000000000000000000000000000000000000000475, 0x1000000000000000000000000000000000000000000000000000000000000000476,
  0x100000000000000000000000000000000000000000000000000000000000000000000000477,
  0x10000000000000000000000000000000000000000000000000000000000000000000000000000000478,
  0x1000000000000000000000000000000000000000000000000000000000000000000000000000000000000000479,
  0x10000000000000000000000000000000000000000000000000000000000000000000000000000000000000000000000047a,
  0x1000000000000000000000000000000000000000000000000000000000000000000000000000000000000000000000000000000047b,
  0x100000000000000000000000000000000000000000000000000000000000000000000000000000000000000000000000000000000000000047c,
  0x10000000000000000000000000000000000000000000000000000000000000000000000000000000000000000000000000000000000000000000000047d,
  0x1000000000000000000000000000000000000000000000000000000000000000000000000000000000000000000000000000000000000000000000000000000047e]⟩

theorem c1 : redChecks mul full full k1 (prodForm true W (argsA full.length) (argsB full.length)) R 4294967296 R p W W1 full full1 = true := by decide +kernel

def k2 : RedCert where
  zs := [86, 0xdf, 0x169, 0x1f3, 0x27d, 0x307, 0x391, 0x41b, 0x4a5, 0x52f, 0x5b9, 0x643, 0x6cd, 0x757, 0x7e1, 0x86b]
  zc := [[0x6f0000000030, 0x10000000032, 0x10000000033],
    [0x6f0000000075, 0x10000000077, 0x10000000078],
    [0x6f00000000bb, 0x100000000bd, 0x100000000be],
    [0x6f0000000101, 0x10000000103, 0x10000000104],
    [0x6f0000000147, 0x10000000149, 0x1000000014a],
    [0x6f000000018d, 0x1000000018f, 0x10000000190],
    [0x6f00000001d3, 0x100000001d5, 0x100000001d6],
    [0x6f0000000219, 0x1000000021b, 0x1000000021c],
    [0x6f000000025f, 0x10000000261, 0x10000000262],
    [0x6f00000002a5, 0x100000002a7, 0x100000002a8],
    [0x6f00000002eb, 0x100000002ed, 0x100000002ee],
    [0x6f0000000331, 0x10000000333, 0x10000000334],
    [0x6f0000000377, 0x10000000379, 0x1000000037a],
    [0x6f00000003bd, 0x100000003bf, 0x100000003c0],
    [0x6f0000000403, 0x10000000405, 0x10000000406],
    [0x6f0000000449, 0x1000000044b, 0x1000000044c]]
  qs := [80, 0xd9, 0x163, 0x1ed, 0x277, 0x301, 0x38b, 0x415, 0x49f, 0x529, 0x5b3, 0x63d, 0x6c7, 0x751, 0x7db, 0x865]
  main := [
  0x1000000000000000000000000000000000000000000000000000000000000000000000000000000000000000000000000000000000000000000000000000000000003d00000,
  0x10000000000000000000000000000000000000000000000000000000000000000000000000000000000000000000000000000000000000000000000000003900000,
  0x100000000000000000000000000000000000000000000000000000000000000000000000000000000000000000000000000000000000000000003500000,
  0x1000000000000000000000000000000000000000000000000000000000000000000000000000000000000000000000000000000000003100000,
  0x10000000000000000000000000000000000000000000000000000000000000000000000000000000000000000000000000002d00000,
  0x100000000000000000000000000000000000000000000000000000000000000000000000000000000000000000002900000,
  0x1000000000000000000000000000000000000000000000000000000000000000000000000000000000002500000,
  0x10000000000000000000000000000000000000000000000000000000000000000000000000002100000,
  0x100000000000000000000000000000000000000000000000000000000000000000001d00000,
  0x1000000000000000000000000000000000000000000000000000000000001900000, 0x10000000000000000000000000000000000000000000000000001500000,
  0x100000000000000000000000000000000000000000001100000, 0x1000000000000000000000000000000000000d00000,
  0x10000000000000000000000000000900000, 0x100000000000000000000500000, 0x1000000000000100000,
  0x100000000000000000000000000000000000000000000000000000000000000000000000000000000000000000000000000000000000000000000000000000000000000000003d00001,
  0x1000000000000000000000000000000000000000000000000000000000000000000000000000000000000000000000000000000000000000000000000000000000003900001,
  0x10000000000000000000000000000000000000000000000000000000000000000000000000000000000000000000000000000000000000000000000000003500001,
  0x100000000000000000000000000000000000000000000000000000000000000000000000000000000000000000000000000000000000000000003100001,
  0x1000000000000000000000000000000000000000000000000000000000000000000000000000000000000000000000000000000000002d00001,
  0x10000000000000000000000000000000000000000000000000000000000000000000000000000000000000000000000000002900001,
  0x100000000000000000000000000000000000000000000000000000000000000000000000000000000000000000002500001,
  0x1000000000000000000000000000000000000000000000000000000000000000000000000000000000002100001,
  0x10000000000000000000000000000000000000000000000000000000000000000000000000001d00001,
  0x100000000000000000000000000000000000000000000000000000000000000000001900001,
  0x1000000000000000000000000000000000000000000000000000000000001500001, 0x10000000000000000000000000000000000000000000000000001100001,
  0x100000000000000000000000000000000000000000000d00001, 0x1000000000000000000000000000000000000900001,
  0x10000000000000000000000000000500001, 0x100000000000000000000100001,
  0x10000000000000000000000000000000000000000000000000000000000000000000000000000000000000000000000000000000000000000000000000000000000000000000000000003d00002,
  0x100000000000000000000000000000000000000000000000000000000000000000000000000000000000000000000000000000000000000000000000000000000000000000003900002,
  0x1000000000000000000000000000000000000000000000000000000000000000000000000000000000000000000000000000000000000000000000000000000000003500002,
  0x10000000000000000000000000000000000000000000000000000000000000000000000000000000000000000000000000000000000000000000000000003100002,
  0x100000000000000000000000000000000000000000000000000000000000000000000000000000000000000000000000000000000000000000002d00002,
  0x1000000000000000000000000000000000000000000000000000000000000000000000000000000000000000000000000000000000002900002,
  0x10000000000000000000000000000000000000000000000000000000000000000000000000000000000000000000000000002500002,
  0x100000000000000000000000000000000000000000000000000000000000000000000000000000000000000000002100002,
  0x1000000000000000000000000000000000000000000000000000000000000000000000000000000000001d00002,
  0x10000000000000000000000000000000000000000000000000000000000000000000000000001900002,
  0x100000000000000000000000000000000000000000000000000000000000000000001500002,
  0x1000000000000000000000000000000000000000000000000000000000001100002, 0x10000000000000000000000000000000000000000000000000000d00002,
  0x100000000000000000000000000000000000000000000900002, 0x1000000000000000000000000000000000000500002,
  0x10000000000000000000000000000100002,
  0x1000000000000000000000000000000000000000000000000000000000000000000000000000000000000000000000000000000000000000000000000000000000000000000000000000000000003d00003,
  0x10000000000000000000000000000000000000000000000000000000000000000000000000000000000000000000000000000000000000000000000000000000000000000000000000003900003,
  0x100000000000000000000000000000000000000000000000000000000000000000000000000000000000000000000000000000000000000000000000000000000000000000003500003,
  0x1000000000000000000000000000000000000000000000000000000000000000000000000000000000000000000000000000000000000000000000000000000000003100003,
  0x10000000000000000000000000000000000000000000000000000000000000000000000000000000000000000000000000000000000000000000000000002d00003,
  0x100000000000000000000000000000000000000000000000000000000000000000000000000000000000000000000000000000000000000000002900003,
  0x1000000000000000000000000000000000000000000000000000000000000000000000000000000000000000000000000000000000002500003,
  0x10000000000000000000000000000000000000000000000000000000000000000000000000000000000000000000000000002100003,
  0x100000000000000000000000000000000000000000000000000000000000000000000000000000000000000000001d00003,
  0x1000000000000000000000000000000000000000000000000000000000000000000000000000000000001900003,
  0x10000000000000000000000000000000000000000000000000000000000000000000000000001500003,
  0x100000000000000000000000000000000000000000000000000000000000000000001100003,
  0x1000000000000000000000000000000000000000000000000000000000000d00003, 0x10000000000000000000000000000000000000000000000000000900003,
  0x100000000000000000000000000000000000000000000500003, 0x1000000000000000000000000000000000000100003,
  0x100000000000000000000000000000000000000000000000000000000000000000000000000000000000000000000000000000000000000000000000000000000000000000000000000000000000000000003d00004,
  0x1000000000000000000000000000000000000000000000000000000000000000000000000000000000000000000000000000000000000000000000000000000000000000000000000000000000003900004,
  0x10000000000000000000000000000000000000000000000000000000000000000000000000000000000000000000000000000000000000000000000000000000000000000000000000003500004,
  0x100000000000000000000000000000000000000000000000000000000000000000000000000000000000000000000000000000000000000000000000000000000000000000003100004,
  0x1000000000000000000000000000000000000000000000000000000000000000000000000000000000000000000000000000000000000000000000000000000000002d00004,
  0x10000000000000000000000000000000000000000000000000000000000000000000000000000000000000000000000000000000000000000000000000002900004,
  0x100000000000000000000000000000000000000000000000000000000000000000000000000000000000000000000000000000000000000000002500004,
  0x1000000000000000000000000000000000000000000000000000000000000000000000000000000000000000000000000000000000002100004,
  0x10000000000000000000000000000000000000000000000000000000000000000000000000000000000000000000000000001d00004,
  0x100000000000000000000000000000000000000000000000000000000000000000000000000000000000000000001900004,
  0x1000000000000000000000000000000000000000000000000000000000000000000000000000000000001500004,
  0x10000000000000000000000000000000000000000000000000000000000000000000000000001100004,
  0x100000000000000000000000000000000000000000000000000000000000000000000d00004,
  0x1000000000000000000000000000000000000000000000000000000000000900004, 0x10000000000000000000000000000000000000000000000000000500004,
  0x100000000000000000000000000000000000000000000100004,
  0x10000000000000000000000000000000000000000000000000000000000000000000000000000000000000000000000000000000000000000000000000000000000000000000000000000000000000000000000000003d00005,
  0x100000000000000000000000000000000000000000000000000000000000000000000000000000000000000000000000000000000000000000000000000000000000000000000000000000000000000000003900005,
  0x1000000000000000000000000000000000000000000000000000000000000000000000000000000000000000000000000000000000000000000000000000000000000000000000000000000000003500005,
  0x10000000000000000000000000000000000000000000000000000000000000000000000000000000000000000000000000000000000000000000000000000000000000000000000000003100005,
  0x100000000000000000000000000000000000000000000000000000000000000000000000000000000000000000000000000000000000000000000000000000000000000000002d00005,
  0x1000000000000000000000000000000000000000000000000000000000000000000000000000000000000000000000000000000000000000000000000000000000002900005,
  0x10000000000000000000000000000000000000000000000000000000000000000000000000000000000000000000000000000000000000000000000000002500005,
  0x100000000000000000000000000000000000000000000000000000000000000000000000000000000000000000000000000000000000000000002100005,
  0x1000000000000000000000000000000000000000000000000000000000000000000000000000000000000000000000000000000000001d00005,
  0x10000000000000000000000000000000000000000000000000000000000000000000000000000000000000000000000000001900005,
  0x100000000000000000000000000000000000000000000000000000000000000000000000000000000000000000001500005,
  0x1000000000000000000000000000000000000000000000000000000000000000000000000000000000001100005,
  0x10000000000000000000000000000000000000000000000000000000000000000000000000000d00005,
  0x100000000000000000000000000000000000000000000000000000000000000000000900005,
  0x1000000000000000000000000000000000000000000000000000000000000500005, 0x10000000000000000000000000000000000000000000000000000100005,
  0x1000000000000000000000000000000000000000000000000000000000000000000000000000000000000000000000000000000000000000000000000000000000000000000000000000000000000000000000000000000000003d00006,
  0x10000000000000000000000000000000000000000000000000000000000000000000000000000000000000000000000000000000000000000000000000000000000000000000000000000000000000000000000000003900006,
  0x100000000000000000000000000000000000000000000000000000000000000000000000000000000000000000000000000000000000000000000000000000000000000000000000000000000000000000003500006,
  0x1000000000000000000000000000000000000000000000000000000000000000000000000000000000000000000000000000000000000000000000000000000000000000000000000000000000003100006,
  0x10000000000000000000000000000000000000000000000000000000000000000000000000000000000000000000000000000000000000000000000000000000000000000000000000002d00006,
  0x100000000000000000000000000000000000000000000000000000000000000000000000000000000000000000000000000000000000000000000000000000000000000000002900006,
  0x1000000000000000000000000000000000000000000000000000000000000000000000000000000000000000000000000000000000000000000000000000000000002500006,
  0x10000000000000000000000000000000000000000000000000000000000000000000000000000000000000000000000000000000000000000000000000002100006,
  0x100000000000000000000000000000000000000000000000000000000000000000000000000000000000000000000000000000000000000000001d00006,
  0x1000000000000000000000000000000000000000000000000000000000000000000000000000000000000000000000000000000000001900006,
  0x10000000000000000000000000000000000000000000000000000000000000000000000000000000000000000000000000001500006,
  0x100000000000000000000000000000000000000000000000000000000000000000000000000000000000000000001100006,
  0x1000000000000000000000000000000000000000000000000000000000000000000000000000000000000d00006,
  0x10000000000000000000000000000000000000000000000000000000000000000000000000000900006,
  0x100000000000000000000000000000000000000000000000000000000000000000000500006,
  0x1000000000000000000000000000000000000000000000000000000000000100006,
  0x100000000000000000000000000000000000000000000000000000000000000000000000000000000000000000000000000000000000000000000000000000000000000000000000000000000000000000000000000000000000000000003d00007,
  0x1000000000000000000000000000000000000000000000000000000000000000000000000000000000000000000000000000000000000000000000000000000000000000000000000000000000000000000000000000000000003900007,
  0x10000000000000000000000000000000000000000000000000000000000000000000000000000000000000000000000000000000000000000000000000000000000000000000000000000000000000000000000000003500007,
  0x100000000000000000000000000000000000000000000000000000000000000000000000000000000000000000000000000000000000000000000000000000000000000000000000000000000000000000003100007,
  0x1000000000000000000000000000000000000000000000000000000000000000000000000000000000000000000000000000000000000000000000000000000000000000000000000000000000002d00007,
  0x10000000000000000000000000000000000000000000000000000000000000000000000000000000000000000000000000000000000000000000000000000000000000000000000000002900007,
  0x100000000000000000000000000000000000000000000000000000000000000000000000000000000000000000000000000000000000000000000000000000000000000000002500007,
  0x1000000000000000000000000000000000000000000000000000000000000000000000000000000000000000000000000000000000000000000000000000000000002100007,
  0x10000000000000000000000000000000000000000000000000000000000000000000000000000000000000000000000000000000000000000000000000001d00007,
  0x100000000000000000000000000000000000000000000000000000000000000000000000000000000000000000000000000000000000000000001900007,
  0x1000000000000000000000000000000000000000000000000000000000000000000000000000000000000000000000000000000000001500007,
  0x10000000000000000000000000000000000000000000000000000000000000000000000000000000000000000000000000001100007,
  0x100000000000000000000000000000000000000000000000000000000000000000000000000000000000000000000d00007,
  0x1000000000000000000000000000000000000000000000000000000000000000000000000000000000000900007,
  0x10000000000000000000000000000000000000000000000000000000000000000000000000000500007,
  0x100000000000000000000000000000000000000000000000000000000000000000000100007,
  0x10000000000000000000000000000000000000000000000000000000000000000000000000000000000000000000000000000000000000000000000000000000000000000000000000000000000000000000000000000000000000000000000000003d00008,
  0x100000000000000000000000000000000000000000000000000000000000000000000000000000000000000000000000000000000000000000000000000000000000000000000000000000000000000000000000000000000000000000003900008,
  0x1000000000000000000000000000000000000000000000000000000000000000000000000000000000000000000000000000000000000000000000000000000000000000000000000000000000000000000000000000000000003500008,
  0x10000000000000000000000000000000000000000000000000000000000000000000000000000000000000000000000000000000000000000000000000000000000000000000000000000000000000000000000000003100008,
  0x100000000000000000000000000000000000000000000000000000000000000000000000000000000000000000000000000000000000000000000000000000000000000000000000000000000000000000002d00008,
  0x1000000000000000000000000000000000000000000000000000000000000000000000000000000000000000000000000000000000000000000000000000000000000000000000000000000000002900008,
  0x10000000000000000000000000000000000000000000000000000000000000000000000000000000000000000000000000000000000000000000000000000000000000000000000000002500008,
  0x100000000000000000000000000000000000000000000000000000000000000000000000000000000000000000000000000000000000000000000000000000000000000000002100008,
  0x1000000000000000000000000000000000000000000000000000000000000000000000000000000000000000000000000000000000000000000000000000000000001d00008,
  0x10000000000000000000000000000000000000000000000000000000000000000000000000000000000000000000000000000000000000000000000000001900008,
  0x100000000000000000000000000000000000000000000000000000000000000000000000000000000000000000000000000000000000000000001500008,
  0x1000000000000000000000000000000000000000000000000000000000000000000000000000000000000000000000000000000000001100008,
  0x10000000000000000000000000000000000000000000000000000000000000000000000000000000000000000000000000000d00008,
  0x100000000000000000000000000000000000000000000000000000000000000000000000000000000000000000000900008,
  0x1000000000000000000000000000000000000000000000000000000000000000000000000000000000000500008,
  0x10000000000000000000000000000000000000000000000000000000000000000000000000000100008,
  0x1000000000000000000000000000000000000000000000000000000000000000000000000000000000000000000000000000000000000000000000000000000000000000000000000000000000000000000000000000000000000000000000000000000000003d00009,
  0x10000000000000000000000000000000000000000000000000000000000000000000000000000000000000000000000000000000000000000000000000000000000000000000000000000000000000000000000000000000000000000000000000003900009,
  0x100000000000000000000000000000000000000000000000000000000000000000000000000000000000000000000000000000000000000000000000000000000000000000000000000000000000000000000000000000000000000000003500009,
  0x1000000000000000000000000000000000000000000000000000000000000000000000000000000000000000000000000000000000000000000000000000000000000000000000000000000000000000000000000000000000003100009,
  0x10000000000000000000000000000000000000000000000000000000000000000000000000000000000000000000000000000000000000000000000000000000000000000000000000000000000000000000000000002d00009,
  0x100000000000000000000000000000000000000000000000000000000000000000000000000000000000000000000000000000000000000000000000000000000000000000000000000000000000000000002900009,
  0x1000000000000000000000000000000000000000000000000000000000000000000000000000000000000000000000000000000000000000000000000000000000000000000000000000000000002500009,
  0x10000000000000000000000000000000000000000000000000000000000000000000000000000000000000000000000000000000000000000000000000000000000000000000000000002100009,
  0x100000000000000000000000000000000000000000000000000000000000000000000000000000000000000000000000000000000000000000000000000000000000000000001d00009,
  0x1000000000000000000000000000000000000000000000000000000000000000000000000000000000000000000000000000000000000000000000000000000000001900009,
  0x10000000000000000000000000000000000000000000000000000000000000000000000000000000000000000000000000000000000000000000000000001500009,
  0x100000000000000000000000000000000000000000000000000000000000000000000000000000000000000000000000000000000000000000001100009,
  0x1000000000000000000000000000000000000000000000000000000000000000000000000000000000000000000000000000000000000d00009,
  0x10000000000000000000000000000000000000000000000000000000000000000000000000000000000000000000000000000900009,
  0x100000000000000000000000000000000000000000000000000000000000000000000000000000000000000000000500009,
  0x1000000000000000000000000000000000000000000000000000000000000000000000000000000000000100009,
  0x100000000000000000000000000000000000000000000000000000000000000000000000000000000000000000000000000000000000000000000000000000000000000000000000000000000000000000000000000000000000000000000000000000000000000000003d0000a,
  0x100000000000000000000000000000000000000000000000000000000000000000000000000000000000000000000000000000000000000000000000000000000000000000000000000000000000000000000000000000000000000000000000000000000000390000a,
  0x1000000000000000000000000000000000000000000000000000000000000000000000000000000000000000000000000000000000000000000000000000000000000000000000000000000000000000000000000000000000000000000000000000350000a,
  0x10000000000000000000000000000000000000000000000000000000000000000000000000000000000000000000000000000000000000000000000000000000000000000000000000000000000000000000000000000000000000000000310000a,
  0x1000000000000000000000000000000000000000000000000000000000000000000000000000000000000000000000000000000000000000000000000000000000000000000000000000000000000000000000000000000000002d0000a,
  0x1000000000000000000000000000000000000000000000000000000000000000000000000000000000000000000000000000000000000000000000000000000000000000000000000000000000000000000000000000290000a,
  0x10000000000000000000000000000000000000000000000000000000000000000000000000000000000000000000000000000000000000000000000000000000000000000000000000000000000000000000250000a,
  0x100000000000000000000000000000000000000000000000000000000000000000000000000000000000000000000000000000000000000000000000000000000000000000000000000000000000210000a,
  0x10000000000000000000000000000000000000000000000000000000000000000000000000000000000000000000000000000000000000000000000000000000000000000000000000001d0000a,
  0x10000000000000000000000000000000000000000000000000000000000000000000000000000000000000000000000000000000000000000000000000000000000000000000190000a,
  0x100000000000000000000000000000000000000000000000000000000000000000000000000000000000000000000000000000000000000000000000000000000000150000a,
  0x1000000000000000000000000000000000000000000000000000000000000000000000000000000000000000000000000000000000000000000000000000110000a,
  0x100000000000000000000000000000000000000000000000000000000000000000000000000000000000000000000000000000000000000000000d0000a,
  0x100000000000000000000000000000000000000000000000000000000000000000000000000000000000000000000000000000000000090000a,
  0x1000000000000000000000000000000000000000000000000000000000000000000000000000000000000000000000000000050000a,
  0x10000000000000000000000000000000000000000000000000000000000000000000000000000000000000000000010000a,
  0x10000000000000000000000000000000000000000000000000000000000000000000000000000000000000000000000000000000000000000000000000000000000000000000000000000000000000000000000000000000000000000000000000000000000000000000000000003d0000b,
  0x10000000000000000000000000000000000000000000000000000000000000000000000000000000000000000000000000000000000000000000000000000000000000000000000000000000000000000000000000000000000000000000000000000000000000000000390000b,
  0x100000000000000000000000000000000000000000000000000000000000000000000000000000000000000000000000000000000000000000000000000000000000000000000000000000000000000000000000000000000000000000000000000000000000350000b,
  0x1000000000000000000000000000000000000000000000000000000000000000000000000000000000000000000000000000000000000000000000000000000000000000000000000000000000000000000000000000000000000000000000000000310000b,
  0x100000000000000000000000000000000000000000000000000000000000000000000000000000000000000000000000000000000000000000000000000000000000000000000000000000000000000000000000000000000000000000002d0000b,
  0x100000000000000000000000000000000000000000000000000000000000000000000000000000000000000000000000000000000000000000000000000000000000000000000000000000000000000000000000000000000000290000b,
  0x1000000000000000000000000000000000000000000000000000000000000000000000000000000000000000000000000000000000000000000000000000000000000000000000000000000000000000000000000000250000b,
  0x10000000000000000000000000000000000000000000000000000000000000000000000000000000000000000000000000000000000000000000000000000000000000000000000000000000000000000000210000b,
  0x1000000000000000000000000000000000000000000000000000000000000000000000000000000000000000000000000000000000000000000000000000000000000000000000000000000000001d0000b,
  0x1000000000000000000000000000000000000000000000000000000000000000000000000000000000000000000000000000000000000000000000000000000000000000000000000000190000b,
  0x10000000000000000000000000000000000000000000000000000000000000000000000000000000000000000000000000000000000000000000000000000000000000000000150000b,
  0x100000000000000000000000000000000000000000000000000000000000000000000000000000000000000000000000000000000000000000000000000000000000110000b,
  0x10000000000000000000000000000000000000000000000000000000000000000000000000000000000000000000000000000000000000000000000000000d0000b,
  0x10000000000000000000000000000000000000000000000000000000000000000000000000000000000000000000000000000000000000000000090000b,
  0x100000000000000000000000000000000000000000000000000000000000000000000000000000000000000000000000000000000000050000b,
  0x1000000000000000000000000000000000000000000000000000000000000000000000000000000000000000000000000000010000b,
  0x1000000000000000000000000000000000000000000000000000000000000000000000000000000000000000000000000000000000000000000000000000000000000000000000000000000000000000000000000000000000000000000000000000000000000000000000000000000000003d0000c,
  0x1000000000000000000000000000000000000000000000000000000000000000000000000000000000000000000000000000000000000000000000000000000000000000000000000000000000000000000000000000000000000000000000000000000000000000000000000000390000c,
  0x10000000000000000000000000000000000000000000000000000000000000000000000000000000000000000000000000000000000000000000000000000000000000000000000000000000000000000000000000000000000000000000000000000000000000000000350000c,
  0x100000000000000000000000000000000000000000000000000000000000000000000000000000000000000000000000000000000000000000000000000000000000000000000000000000000000000000000000000000000000000000000000000000000000310000c,
  0x10000000000000000000000000000000000000000000000000000000000000000000000000000000000000000000000000000000000000000000000000000000000000000000000000000000000000000000000000000000000000000000000000002d0000c,
  0x10000000000000000000000000000000000000000000000000000000000000000000000000000000000000000000000000000000000000000000000000000000000000000000000000000000000000000000000000000000000000000000290000c,
  0x100000000000000000000000000000000000000000000000000000000000000000000000000000000000000000000000000000000000000000000000000000000000000000000000000000000000000000000000000000000000250000c,
  0x1000000000000000000000000000000000000000000000000000000000000000000000000000000000000000000000000000000000000000000000000000000000000000000000000000000000000000000000000000210000c,
  0x100000000000000000000000000000000000000000000000000000000000000000000000000000000000000000000000000000000000000000000000000000000000000000000000000000000000000000001d0000c,
  0x100000000000000000000000000000000000000000000000000000000000000000000000000000000000000000000000000000000000000000000000000000000000000000000000000000000000190000c,
  0x1000000000000000000000000000000000000000000000000000000000000000000000000000000000000000000000000000000000000000000000000000000000000000000000000000150000c,
  0x10000000000000000000000000000000000000000000000000000000000000000000000000000000000000000000000000000000000000000000000000000000000000000000110000c,
  0x1000000000000000000000000000000000000000000000000000000000000000000000000000000000000000000000000000000000000000000000000000000000000d0000c,
  0x1000000000000000000000000000000000000000000000000000000000000000000000000000000000000000000000000000000000000000000000000000090000c,
  0x10000000000000000000000000000000000000000000000000000000000000000000000000000000000000000000000000000000000000000000050000c,
  0x100000000000000000000000000000000000000000000000000000000000000000000000000000000000000000000000000000000000010000c,
  0x100000000000000000000000000000000000000000000000000000000000000000000000000000000000000000000000000000000000000000000000000000000000000000000000000000000000000000000000000000000000000000000000000000000000000000000000000000000000000000003d0000d,
  0x100000000000000000000000000000000000000000000000000000000000000000000000000000000000000000000000000000000000000000000000000000000000000000000000000000000000000000000000000000000000000000000000000000000000000000000000000000000000390000d,
  0x1000000000000000000000000000000000000000000000000000000000000000000000000000000000000000000000000000000000000000000000000000000000000000000000000000000000000000000000000000000000000000000000000000000000000000000000000000350000d,
  0x10000000000000000000000000000000000000000000000000000000000000000000000000000000000000000000000000000000000000000000000000000000000000000000000000000000000000000000000000000000000000000000000000000000000000000000310000d,
  0x1000000000000000000000000000000000000000000000000000000000000000000000000000000000000000000000000000000000000000000000000000000000000000000000000000000000000000000000000000000000000000000000000000000000002d0000d,
  0x1000000000000000000000000000000000000000000000000000000000000000000000000000000000000000000000000000000000000000000000000000000000000000000000000000000000000000000000000000000000000000000000000000290000d,
  0x10000000000000000000000000000000000000000000000000000000000000000000000000000000000000000000000000000000000000000000000000000000000000000000000000000000000000000000000000000000000000000000250000d,
  0x100000000000000000000000000000000000000000000000000000000000000000000000000000000000000000000000000000000000000000000000000000000000000000000000000000000000000000000000000000000000210000d,
  0x10000000000000000000000000000000000000000000000000000000000000000000000000000000000000000000000000000000000000000000000000000000000000000000000000000000000000000000000000001d0000d,
  0x10000000000000000000000000000000000000000000000000000000000000000000000000000000000000000000000000000000000000000000000000000000000000000000000000000000000000000000190000d,
  0x100000000000000000000000000000000000000000000000000000000000000000000000000000000000000000000000000000000000000000000000000000000000000000000000000000000000150000d,
  0x1000000000000000000000000000000000000000000000000000000000000000000000000000000000000000000000000000000000000000000000000000000000000000000000000000110000d,
  0x100000000000000000000000000000000000000000000000000000000000000000000000000000000000000000000000000000000000000000000000000000000000000000000d0000d,
  0x100000000000000000000000000000000000000000000000000000000000000000000000000000000000000000000000000000000000000000000000000000000000090000d,
  0x1000000000000000000000000000000000000000000000000000000000000000000000000000000000000000000000000000000000000000000000000000050000d,
  0x10000000000000000000000000000000000000000000000000000000000000000000000000000000000000000000000000000000000000000000010000d,
  0x10000000000000000000000000000000000000000000000000000000000000000000000000000000000000000000000000000000000000000000000000000000000000000000000000000000000000000000000000000000000000000000000000000000000000000000000000000000000000000000000000003d0000e,
  0x10000000000000000000000000000000000000000000000000000000000000000000000000000000000000000000000000000000000000000000000000000000000000000000000000000000000000000000000000000000000000000000000000000000000000000000000000000000000000000000390000e,
  0x100000000000000000000000000000000000000000000000000000000000000000000000000000000000000000000000000000000000000000000000000000000000000000000000000000000000000000000000000000000000000000000000000000000000000000000000000000000000350000e,
  0x1000000000000000000000000000000000000000000000000000000000000000000000000000000000000000000000000000000000000000000000000000000000000000000000000000000000000000000000000000000000000000000000000000000000000000000000000000310000e,
  0x100000000000000000000000000000000000000000000000000000000000000000000000000000000000000000000000000000000000000000000000000000000000000000000000000000000000000000000000000000000000000000000000000000000000000000002d0000e,
  0x100000000000000000000000000000000000000000000000000000000000000000000000000000000000000000000000000000000000000000000000000000000000000000000000000000000000000000000000000000000000000000000000000000000000290000e,
  0x1000000000000000000000000000000000000000000000000000000000000000000000000000000000000000000000000000000000000000000000000000000000000000000000000000000000000000000000000000000000000000000000000000250000e,
  0x10000000000000000000000000000000000000000000000000000000000000000000000000000000000000000000000000000000000000000000000000000000000000000000000000000000000000000000000000000000000000000000210000e,
  0x1000000000000000000000000000000000000000000000000000000000000000000000000000000000000000000000000000000000000000000000000000000000000000000000000000000000000000000000000000000000001d0000e,
  0x1000000000000000000000000000000000000000000000000000000000000000000000000000000000000000000000000000000000000000000000000000000000000000000000000000000000000000000000000000190000e,
  0x10000000000000000000000000000000000000000000000000000000000000000000000000000000000000000000000000000000000000000000000000000000000000000000000000000000000000000000150000e,
  0x100000000000000000000000000000000000000000000000000000000000000000000000000000000000000000000000000000000000000000000000000000000000000000000000000000000000110000e,
  0x10000000000000000000000000000000000000000000000000000000000000000000000000000000000000000000000000000000000000000000000000000000000000000000000000000d0000e,
  0x10000000000000000000000000000000000000000000000000000000000000000000000000000000000000000000000000000000000000000000000000000000000000000000090000e,
  0x100000000000000000000000000000000000000000000000000000000000000000000000000000000000000000000000000000000000000000000000000000000000050000e,
  0x1000000000000000000000000000000000000000000000000000000000000000000000000000000000000000000000000000000000000000000000000000010000e,
  0x10000000000000000000000000000000000000000000000000000000000000000000000000000000000000000000000000000000000000000000000000003d0000f,
  0x10000000000000000000000000000000000000000000000000000000000000000000000000000000000000000000000000000000000000000000390000f,
  0x100000000000000000000000000000000000000000000000000000000000000000000000000000000000000000000000000000000000350000f,
  0x1000000000000000000000000000000000000000000000000000000000000000000000000000000000000000000000000000310000f,
  0x100000000000000000000000000000000000000000000000000000000000000000000000000000000000000000002d0000f,
  0x100000000000000000000000000000000000000000000000000000000000000000000000000000000000290000f,
  0x1000000000000000000000000000000000000000000000000000000000000000000000000000250000f,
  0x10000000000000000000000000000000000000000000000000000000000000000000210000f,
  0x1000000000000000000000000000000000000000000000000000000000001d0000f, 0x1000000000000000000000000000000000000000000000000000190000f,
  0x10000000000000000000000000000000000000000000150000f, 0x100000000000000000000000000000000000110000f,
  0x10000000000000000000000000000d0000f, 0x10000000000000000000090000f, 0x100000000000050000f, 0x1000010000f,
  0x10000000000000000000000000000000000000000000000000000000000000000000000000000000000000000000000000000000000000000000000000000000010,
  0x100000000000000000000000000000000000000000000000000000000000000000000000000000000000000000000000000000000000000000000000011,
  0x1000000000000000000000000000000000000000000000000000000000000000000000000000000000000000000000000000000000000000012,
  0x10000000000000000000000000000000000000000000000000000000000000000000000000000000000000000000000000000000013,
  0x100000000000000000000000000000000000000000000000000000000000000000000000000000000000000000000000014,
  0x1000000000000000000000000000000000000000000000000000000000000000000000000000000000000000015,
  0x10000000000000000000000000000000000000000000000000000000000000000000000000000000016,
  0x100000000000000000000000000000000000000000000000000000000000000000000000017,
  0x1000000000000000000000000000000000000000000000000000000000000000018, 0x10000000000000000000000000000000000000000000000000000000019,
  0x10000000000000000000000000000000000000000000000001a, 0x100000000000000000000000000000000000000001b,
  0x1000000000000000000000000000000001c, 0x10000000000000000000000001d, 0x100000000000000001e, 0x1000000001f, 0x1000000000000000020,
  0x100000000000000000000000021, 0x10000000000000000000000000000000022, 0x1000000000000000000000000000000000000000023,
  0x100000000000000000000000000000000000000000000000024, 0x10000000000000000000000000000000000000000000000000000000025,
  0x1000000000000000000000000000000000000000000000000000000000000000026,
  0x100000000000000000000000000000000000000000000000000000000000000000000000027,
  0x10000000000000000000000000000000000000000000000000000000000000000000000000000000028,
  0x1000000000000000000000000000000000000000000000000000000000000000000000000000000000000000029,
  0x10000000000000000000000000000000000000000000000000000000000000000000000000000000000000000000000002a,
  0x1000000000000000000000000000000000000000000000000000000000000000000000000000000000000000000000000000000002b,
  0x100000000000000000000000000000000000000000000000000000000000000000000000000000000000000000000000000000000000000002c,
  0x10000000000000000000000000000000000000000000000000000000000000000000000000000000000000000000000000000000000000000000000002d,
  0x1000000000000000000000000000000000000000000000000000000000000000000000000000000000000000000000000000000000000000000000000000000002e,
  0x100000000000000000000000000000000000000000000000000000000000000000000000000000000000000000000000000000000000000000000000000000000000000002f,
  0x10000000000000000000000000000000000000000000000000000000000000000000000000000000000000000000000000000000000000000000000000000000031,
  0x10000000032, 0x10000050033, 0x10000000033, 0x1000000000000000034, 0x100000000000000000000000035, 0x10000000000000000000000000000000036,
  0x1000000000000000000000000000000000000000037, 0x100000000000000000000000000000000000000000000000038,
  0x10000000000000000000000000000000000000000000000000000000039, 0x100000000000000000000000000000000000000000000000000000000000000003a,
  0x10000000000000000000000000000000000000000000000000000000000000000000000003b,
  0x1000000000000000000000000000000000000000000000000000000000000000000000000000000003c,
  0x100000000000000000000000000000000000000000000000000000000000000000000000000000000000000003d,
  0x10000000000000000000000000000000000000000000000000000000000000000000000000000000000000000000000003e,
  0x1000000000000000000000000000000000000000000000000000000000000000000000000000000000000000000000000000000003f,
  0x1000000000000000000000000000000000000000000000000000000000000000000000000000000000000000000000000000000000000000040,
  0x100000000000000000000000000000000000000000000000000000000000000000000000000000000000000000000000000000000000000000000000041,
  0x10000000000000000000000000000000000000000000000000000000000000000000000000000000000000000000000000000000000000000000000000000000042,
  0x1000000000000000000000000000000000000000000000000000000000000000000000000000000000000000000000000000000000000000000000000000000000000000043,
  0x1000000000000000000000000000000000000000000000000000000000000000000000000000000000000000000000000000000000000000000000000000000000000000044,
  0x10000000000000000000000000000000000000000000000000000000000000000000000000000000000000000000000000000000000000000000000000000000045,
  0x100000000000000000000000000000000000000000000000000000000000000000000000000000000000000000000000000000000000000000000000046,
  0x1000000000000000000000000000000000000000000000000000000000000000000000000000000000000000000000000000000000000000047,
  0x10000000000000000000000000000000000000000000000000000000000000000000000000000000000000000000000000000000048,
  0x100000000000000000000000000000000000000000000000000000000000000000000000000000000000000000000000049,
  0x100000000000000000000000000000000000000000000000000000000000000000000000000000000000000004a,
  0x1000000000000000000000000000000000000000000000000000000000000000000000000000000004b,
  0x10000000000000000000000000000000000000000000000000000000000000000000000004c,
  0x100000000000000000000000000000000000000000000000000000000000000004d, 0x1000000000000000000000000000000000000000000000000000000004e,
  0x10000000000000000000000000000000000000000000000004f, 0x1000000000000000000000000000000000000000050,
  0x10000000000000000000000000000000051, 0x100000000000000000000000052, 0x1000000000000000053, 0x100000000000000000000000054,
  0x10000000000000000000000000000000055, 0x1000000000000000000000000000000000000000056,
  0x100000000000000000000000000000000000000000000000057, 0x10000000000000000000000000000000000000000000000000000000058,
  0x1000000000000000000000000000000000000000000000000000000000000000059,
  0x10000000000000000000000000000000000000000000000000000000000000000000000005a,
  0x1000000000000000000000000000000000000000000000000000000000000000000000000000000005b,
  0x100000000000000000000000000000000000000000000000000000000000000000000000000000000000000005c,
  0x10000000000000000000000000000000000000000000000000000000000000000000000000000000000000000000000005d,
  0x1000000000000000000000000000000000000000000000000000000000000000000000000000000000000000000000000000000005e,
  0x100000000000000000000000000000000000000000000000000000000000000000000000000000000000000000000000000000000000000005f,
  0x100000000000000000000000000000000000000000000000000000000000000000000000000000000000000000000000000000000000000000000000060,
  0x10000000000000000000000000000000000000000000000000000000000000000000000000000000000000000000000000000000000000000000000000000000061,
  0x1000000000000000000000000000000000000000000000000000000000000000000000000000000000000000000000000000000000000000000000000000000000000000062,
  0x100000000000000000000000000000000000000000000000000000000000000000000000000000000000000000000000000000000000000000000000000000000000000000000000063,
  0x1000000000000000064, 0x100000000000000000000000065, 0x10000000000000000000000000000000066, 0x1000000000000000000000000000000000000000067,
  0x100000000000000000000000000000000000000000000000068, 0x10000000000000000000000000000000000000000000000000000000069,
  0x100000000000000000000000000000000000000000000000000000000000000006a,
  0x10000000000000000000000000000000000000000000000000000000000000000000000006b,
  0x1000000000000000000000000000000000000000000000000000000000000000000000000000000006c,
  0x100000000000000000000000000000000000000000000000000000000000000000000000000000000000000006d,
  0x10000000000000000000000000000000000000000000000000000000000000000000000000000000000000000000000006e,
  0x1000000000000000000000000000000000000000000000000000000000000000000000000000000000000000000000000000000006f,
  0x1000000000000000000000000000000000000000000000000000000000000000000000000000000000000000000000000000000000000000070,
  0x100000000000000000000000000000000000000000000000000000000000000000000000000000000000000000000000000000000000000000000000071,
  0x10000000000000000000000000000000000000000000000000000000000000000000000000000000000000000000000000000000000000000000000000000000072,
  0x1000000000000000000000000000000000000000000000000000000000000000000000000000000000000000000000000000000000000000000000000000000000000000073,
  0x100000000000000000000000000000000000000000000000000000000000000000000000000000000000000000000000000000000000000000000000000000000000000000000000074,
  0x1000000000000000000000000000000000000000000000000000000000000000000000000000000000000000000000000000000000000000000000000000000000000000076,
  0x1000000000000000077, 0x1000000000000050078, 0x1000000000000000078, 0x100000000000000000000000079, 0x1000000000000000000000000000000007a,
  0x100000000000000000000000000000000000000007b, 0x10000000000000000000000000000000000000000000000007c,
  0x1000000000000000000000000000000000000000000000000000000007d, 0x100000000000000000000000000000000000000000000000000000000000000007e,
  0x10000000000000000000000000000000000000000000000000000000000000000000000007f,
  0x10000000000000000000000000000000000000000000000000000000000000000000000000000000080,
  0x1000000000000000000000000000000000000000000000000000000000000000000000000000000000000000081,
  0x100000000000000000000000000000000000000000000000000000000000000000000000000000000000000000000000082,
  0x10000000000000000000000000000000000000000000000000000000000000000000000000000000000000000000000000000000083,
  0x1000000000000000000000000000000000000000000000000000000000000000000000000000000000000000000000000000000000000000084,
  0x100000000000000000000000000000000000000000000000000000000000000000000000000000000000000000000000000000000000000000000000085,
  0x10000000000000000000000000000000000000000000000000000000000000000000000000000000000000000000000000000000000000000000000000000000086,
  0x1000000000000000000000000000000000000000000000000000000000000000000000000000000000000000000000000000000000000000000000000000000000000000087,
  0x100000000000000000000000000000000000000000000000000000000000000000000000000000000000000000000000000000000000000000000000000000000000000000000000088,
  0x10000000000000000000000000000000000000000000000000000000000000000000000000000000000000000000000000000000000000000000000000000000000000000000000000000000089,
  0x10000000000000000000000000000000000000000000000000000000000000000000000000000000000000000000000000000000000000000000000000000000000000000000000008a,
  0x100000000000000000000000000000000000000000000000000000000000000000000000000000000000000000000000000000000000000000000000000000000000000008b,
  0x1000000000000000000000000000000000000000000000000000000000000000000000000000000000000000000000000000000000000000000000000000000008c,
  0x10000000000000000000000000000000000000000000000000000000000000000000000000000000000000000000000000000000000000000000000008d,
  0x100000000000000000000000000000000000000000000000000000000000000000000000000000000000000000000000000000000000000008e,
  0x1000000000000000000000000000000000000000000000000000000000000000000000000000000000000000000000000000000008f,
  0x100000000000000000000000000000000000000000000000000000000000000000000000000000000000000000000000090,
  0x1000000000000000000000000000000000000000000000000000000000000000000000000000000000000000091,
  0x10000000000000000000000000000000000000000000000000000000000000000000000000000000092,
  0x100000000000000000000000000000000000000000000000000000000000000000000000093,
  0x1000000000000000000000000000000000000000000000000000000000000000094, 0x10000000000000000000000000000000000000000000000000000000095,
  0x100000000000000000000000000000000000000000000000096, 0x1000000000000000000000000000000000000000097,
  0x10000000000000000000000000000000098, 0x100000000000000000000000099, 0x1000000000000000000000000000000009a,
  0x100000000000000000000000000000000000000009b, 0x10000000000000000000000000000000000000000000000009c,
  0x1000000000000000000000000000000000000000000000000000000009d, 0x100000000000000000000000000000000000000000000000000000000000000009e,
  0x10000000000000000000000000000000000000000000000000000000000000000000000009f,
  0x100000000000000000000000000000000000000000000000000000000000000000000000000000000a0,
  0x10000000000000000000000000000000000000000000000000000000000000000000000000000000000000000a1,
  0x1000000000000000000000000000000000000000000000000000000000000000000000000000000000000000000000000a2,
  0x100000000000000000000000000000000000000000000000000000000000000000000000000000000000000000000000000000000a3,
  0x10000000000000000000000000000000000000000000000000000000000000000000000000000000000000000000000000000000000000000a4,
  0x1000000000000000000000000000000000000000000000000000000000000000000000000000000000000000000000000000000000000000000000000a5,
  0x100000000000000000000000000000000000000000000000000000000000000000000000000000000000000000000000000000000000000000000000000000000a6,
  0x10000000000000000000000000000000000000000000000000000000000000000000000000000000000000000000000000000000000000000000000000000000000000000a7,
  0x1000000000000000000000000000000000000000000000000000000000000000000000000000000000000000000000000000000000000000000000000000000000000000000000000a8,
  0x100000000000000000000000000000000000000000000000000000000000000000000000000000000000000000000000000000000000000000000000000000000000000000000000000000000a9,
  0x1000000000000000000000000aa, 0x100000000000000000000000000000000ab, 0x10000000000000000000000000000000000000000ac,
  0x1000000000000000000000000000000000000000000000000ad, 0x100000000000000000000000000000000000000000000000000000000ae,
  0x10000000000000000000000000000000000000000000000000000000000000000af,
  0x1000000000000000000000000000000000000000000000000000000000000000000000000b0,
  0x100000000000000000000000000000000000000000000000000000000000000000000000000000000b1,
  0x10000000000000000000000000000000000000000000000000000000000000000000000000000000000000000b2,
  0x1000000000000000000000000000000000000000000000000000000000000000000000000000000000000000000000000b3,
  0x100000000000000000000000000000000000000000000000000000000000000000000000000000000000000000000000000000000b4,
  0x10000000000000000000000000000000000000000000000000000000000000000000000000000000000000000000000000000000000000000b5,
  0x1000000000000000000000000000000000000000000000000000000000000000000000000000000000000000000000000000000000000000000000000b6,
  0x100000000000000000000000000000000000000000000000000000000000000000000000000000000000000000000000000000000000000000000000000000000b7,
  0x10000000000000000000000000000000000000000000000000000000000000000000000000000000000000000000000000000000000000000000000000000000000000000b8,
  0x1000000000000000000000000000000000000000000000000000000000000000000000000000000000000000000000000000000000000000000000000000000000000000000000000b9,
  0x100000000000000000000000000000000000000000000000000000000000000000000000000000000000000000000000000000000000000000000000000000000000000000000000000000000ba,
  0x1000000000000000000000000000000000000000000000000000000000000000000000000000000000000000000000000000000000000000000000000000000000000000000000000bc,
  0x1000000000000000000000000bd, 0x1000000000000000000000500be, 0x1000000000000000000000000be, 0x100000000000000000000000000000000bf,
  0x10000000000000000000000000000000000000000c0, 0x1000000000000000000000000000000000000000000000000c1,
  0x100000000000000000000000000000000000000000000000000000000c2, 0x10000000000000000000000000000000000000000000000000000000000000000c3,
  0x1000000000000000000000000000000000000000000000000000000000000000000000000c4,
  0x100000000000000000000000000000000000000000000000000000000000000000000000000000000c5,
  0x10000000000000000000000000000000000000000000000000000000000000000000000000000000000000000c6,
  0x1000000000000000000000000000000000000000000000000000000000000000000000000000000000000000000000000c7,
  0x100000000000000000000000000000000000000000000000000000000000000000000000000000000000000000000000000000000c8,
  0x10000000000000000000000000000000000000000000000000000000000000000000000000000000000000000000000000000000000000000c9,
  0x1000000000000000000000000000000000000000000000000000000000000000000000000000000000000000000000000000000000000000000000000ca,
  0x100000000000000000000000000000000000000000000000000000000000000000000000000000000000000000000000000000000000000000000000000000000cb,
  0x10000000000000000000000000000000000000000000000000000000000000000000000000000000000000000000000000000000000000000000000000000000000000000cc,
  0x1000000000000000000000000000000000000000000000000000000000000000000000000000000000000000000000000000000000000000000000000000000000000000000000000cd,
  0x100000000000000000000000000000000000000000000000000000000000000000000000000000000000000000000000000000000000000000000000000000000000000000000000000000000ce,
  0x10000000000000000000000000000000000000000000000000000000000000000000000000000000000000000000000000000000000000000000000000000000000000000000000000000000000000000cf,
  0x100000000000000000000000000000000000000000000000000000000000000000000000000000000000000000000000000000000000000000000000000000000000000000000000000000000d0,
  0x1000000000000000000000000000000000000000000000000000000000000000000000000000000000000000000000000000000000000000000000000000000000000000000000000d1,
  0x10000000000000000000000000000000000000000000000000000000000000000000000000000000000000000000000000000000000000000000000000000000000000000d2,
  0x100000000000000000000000000000000000000000000000000000000000000000000000000000000000000000000000000000000000000000000000000000000d3,
  0x1000000000000000000000000000000000000000000000000000000000000000000000000000000000000000000000000000000000000000000000000d4,
  0x10000000000000000000000000000000000000000000000000000000000000000000000000000000000000000000000000000000000000000d5,
  0x100000000000000000000000000000000000000000000000000000000000000000000000000000000000000000000000000000000d6,
  0x1000000000000000000000000000000000000000000000000000000000000000000000000000000000000000000000000d7,
  0x10000000000000000000000000000000000000000000000000000000000000000000000000000000000000000d8,
  0x100000000000000000000000000000000000000000000000000000000000000000000000000000000d9,
  0x1000000000000000000000000000000000000000000000000000000000000000000000000da,
  0x10000000000000000000000000000000000000000000000000000000000000000db, 0x100000000000000000000000000000000000000000000000000000000dc,
  0x1000000000000000000000000000000000000000000000000dd, 0x10000000000000000000000000000000000000000de,
  0x100000000000000000000000000000000df, 0x10000000000000000000000000000000000000000e0,
  0x1000000000000000000000000000000000000000000000000e1, 0x100000000000000000000000000000000000000000000000000000000e2,
  0x10000000000000000000000000000000000000000000000000000000000000000e3,
  0x1000000000000000000000000000000000000000000000000000000000000000000000000e4,
  0x100000000000000000000000000000000000000000000000000000000000000000000000000000000e5,
  0x10000000000000000000000000000000000000000000000000000000000000000000000000000000000000000e6,
  0x1000000000000000000000000000000000000000000000000000000000000000000000000000000000000000000000000e7,
  0x100000000000000000000000000000000000000000000000000000000000000000000000000000000000000000000000000000000e8,
  0x10000000000000000000000000000000000000000000000000000000000000000000000000000000000000000000000000000000000000000e9,
  0x1000000000000000000000000000000000000000000000000000000000000000000000000000000000000000000000000000000000000000000000000ea,
  0x100000000000000000000000000000000000000000000000000000000000000000000000000000000000000000000000000000000000000000000000000000000eb,
  0x10000000000000000000000000000000000000000000000000000000000000000000000000000000000000000000000000000000000000000000000000000000000000000ec,
  0x1000000000000000000000000000000000000000000000000000000000000000000000000000000000000000000000000000000000000000000000000000000000000000000000000ed,
  0x100000000000000000000000000000000000000000000000000000000000000000000000000000000000000000000000000000000000000000000000000000000000000000000000000000000ee,
  0x10000000000000000000000000000000000000000000000000000000000000000000000000000000000000000000000000000000000000000000000000000000000000000000000000000000000000000ef,
  0x100000000000000000000000000000000f0, 0x10000000000000000000000000000000000000000f1,
  0x1000000000000000000000000000000000000000000000000f2, 0x100000000000000000000000000000000000000000000000000000000f3,
  0x10000000000000000000000000000000000000000000000000000000000000000f4,
  0x1000000000000000000000000000000000000000000000000000000000000000000000000f5,
  0x100000000000000000000000000000000000000000000000000000000000000000000000000000000f6,
  0x10000000000000000000000000000000000000000000000000000000000000000000000000000000000000000f7,
  0x1000000000000000000000000000000000000000000000000000000000000000000000000000000000000000000000000f8,
  0x100000000000000000000000000000000000000000000000000000000000000000000000000000000000000000000000000000000f9,
  0x10000000000000000000000000000000000000000000000000000000000000000000000000000000000000000000000000000000000000000fa,
  0x1000000000000000000000000000000000000000000000000000000000000000000000000000000000000000000000000000000000000000000000000fb,
  0x100000000000000000000000000000000000000000000000000000000000000000000000000000000000000000000000000000000000000000000000000000000fc,
  0x10000000000000000000000000000000000000000000000000000000000000000000000000000000000000000000000000000000000000000000000000000000000000000fd,
  0x1000000000000000000000000000000000000000000000000000000000000000000000000000000000000000000000000000000000000000000000000000000000000000000000000fe,
  0x100000000000000000000000000000000000000000000000000000000000000000000000000000000000000000000000000000000000000000000000000000000000000000000000000000000ff,
  0x1000000000000000000000000000000000000000000000000000000000000000000000000000000000000000000000000000000000000000000000000000000000000000000000000000000000000000100,
  0x10000000000000000000000000000000000000000000000000000000000000000000000000000000000000000000000000000000000000000000000000000000000000000000000000000000102,
  0x10000000000000000000000000000000103, 0x10000000000000000000000000000050104, 0x10000000000000000000000000000000104,
  0x1000000000000000000000000000000000000000105, 0x100000000000000000000000000000000000000000000000106,
  0x10000000000000000000000000000000000000000000000000000000107, 0x1000000000000000000000000000000000000000000000000000000000000000108,
  0x100000000000000000000000000000000000000000000000000000000000000000000000109,
  0x1000000000000000000000000000000000000000000000000000000000000000000000000000000010a,
  0x100000000000000000000000000000000000000000000000000000000000000000000000000000000000000010b,
  0x10000000000000000000000000000000000000000000000000000000000000000000000000000000000000000000000010c,
  0x1000000000000000000000000000000000000000000000000000000000000000000000000000000000000000000000000000000010d,
  0x100000000000000000000000000000000000000000000000000000000000000000000000000000000000000000000000000000000000000010e,
  0x10000000000000000000000000000000000000000000000000000000000000000000000000000000000000000000000000000000000000000000000010f,
  0x10000000000000000000000000000000000000000000000000000000000000000000000000000000000000000000000000000000000000000000000000000000110,
  0x1000000000000000000000000000000000000000000000000000000000000000000000000000000000000000000000000000000000000000000000000000000000000000111,
  0x100000000000000000000000000000000000000000000000000000000000000000000000000000000000000000000000000000000000000000000000000000000000000000000000112,
  0x10000000000000000000000000000000000000000000000000000000000000000000000000000000000000000000000000000000000000000000000000000000000000000000000000000000113,
  0x1000000000000000000000000000000000000000000000000000000000000000000000000000000000000000000000000000000000000000000000000000000000000000000000000000000000000000114,
  0x100000000000000000000000000000000000000000000000000000000000000000000000000000000000000000000000000000000000000000000000000000000000000000000000000000000000000000000000115,
  0x1000000000000000000000000000000000000000000000000000000000000000000000000000000000000000000000000000000000000000000000000000000000000000000000000000000000000000116,
  0x10000000000000000000000000000000000000000000000000000000000000000000000000000000000000000000000000000000000000000000000000000000000000000000000000000000117,
  0x100000000000000000000000000000000000000000000000000000000000000000000000000000000000000000000000000000000000000000000000000000000000000000000000118,
  0x1000000000000000000000000000000000000000000000000000000000000000000000000000000000000000000000000000000000000000000000000000000000000000119,
  0x1000000000000000000000000000000000000000000000000000000000000000000000000000000000000000000000000000000000000000000000000000000011a,
  0x10000000000000000000000000000000000000000000000000000000000000000000000000000000000000000000000000000000000000000000000011b,
  0x100000000000000000000000000000000000000000000000000000000000000000000000000000000000000000000000000000000000000011c,
  0x1000000000000000000000000000000000000000000000000000000000000000000000000000000000000000000000000000000011d,
  0x10000000000000000000000000000000000000000000000000000000000000000000000000000000000000000000000011e,
  0x100000000000000000000000000000000000000000000000000000000000000000000000000000000000000011f,
  0x10000000000000000000000000000000000000000000000000000000000000000000000000000000120,
  0x100000000000000000000000000000000000000000000000000000000000000000000000121,
  0x1000000000000000000000000000000000000000000000000000000000000000122, 0x10000000000000000000000000000000000000000000000000000000123,
  0x100000000000000000000000000000000000000000000000124, 0x1000000000000000000000000000000000000000125,
  0x100000000000000000000000000000000000000000000000126, 0x10000000000000000000000000000000000000000000000000000000127,
  0x1000000000000000000000000000000000000000000000000000000000000000128,
  0x100000000000000000000000000000000000000000000000000000000000000000000000129,
  0x1000000000000000000000000000000000000000000000000000000000000000000000000000000012a,
  0x100000000000000000000000000000000000000000000000000000000000000000000000000000000000000012b,
  0x10000000000000000000000000000000000000000000000000000000000000000000000000000000000000000000000012c,
  0x1000000000000000000000000000000000000000000000000000000000000000000000000000000000000000000000000000000012d,
  0x100000000000000000000000000000000000000000000000000000000000000000000000000000000000000000000000000000000000000012e,
  0x10000000000000000000000000000000000000000000000000000000000000000000000000000000000000000000000000000000000000000000000012f,
  0x10000000000000000000000000000000000000000000000000000000000000000000000000000000000000000000000000000000000000000000000000000000130,
  0x1000000000000000000000000000000000000000000000000000000000000000000000000000000000000000000000000000000000000000000000000000000000000000131,
  0x100000000000000000000000000000000000000000000000000000000000000000000000000000000000000000000000000000000000000000000000000000000000000000000000132,
  0x10000000000000000000000000000000000000000000000000000000000000000000000000000000000000000000000000000000000000000000000000000000000000000000000000000000133,
  0x1000000000000000000000000000000000000000000000000000000000000000000000000000000000000000000000000000000000000000000000000000000000000000000000000000000000000000134,
  0x100000000000000000000000000000000000000000000000000000000000000000000000000000000000000000000000000000000000000000000000000000000000000000000000000000000000000000000000135,
  0x1000000000000000000000000000000000000000136, 0x100000000000000000000000000000000000000000000000137,
  0x10000000000000000000000000000000000000000000000000000000138, 0x1000000000000000000000000000000000000000000000000000000000000000139,
  0x10000000000000000000000000000000000000000000000000000000000000000000000013a,
  0x1000000000000000000000000000000000000000000000000000000000000000000000000000000013b,
  0x100000000000000000000000000000000000000000000000000000000000000000000000000000000000000013c,
  0x10000000000000000000000000000000000000000000000000000000000000000000000000000000000000000000000013d,
  0x1000000000000000000000000000000000000000000000000000000000000000000000000000000000000000000000000000000013e,
  0x100000000000000000000000000000000000000000000000000000000000000000000000000000000000000000000000000000000000000013f,
  0x100000000000000000000000000000000000000000000000000000000000000000000000000000000000000000000000000000000000000000000000140,
  0x10000000000000000000000000000000000000000000000000000000000000000000000000000000000000000000000000000000000000000000000000000000141,
  0x1000000000000000000000000000000000000000000000000000000000000000000000000000000000000000000000000000000000000000000000000000000000000000142,
  0x100000000000000000000000000000000000000000000000000000000000000000000000000000000000000000000000000000000000000000000000000000000000000000000000143,
  0x10000000000000000000000000000000000000000000000000000000000000000000000000000000000000000000000000000000000000000000000000000000000000000000000000000000144,
  0x1000000000000000000000000000000000000000000000000000000000000000000000000000000000000000000000000000000000000000000000000000000000000000000000000000000000000000145,
  0x100000000000000000000000000000000000000000000000000000000000000000000000000000000000000000000000000000000000000000000000000000000000000000000000000000000000000000000000146,
  0x1000000000000000000000000000000000000000000000000000000000000000000000000000000000000000000000000000000000000000000000000000000000000000000000000000000000000000148,
  0x1000000000000000000000000000000000000000149, 0x100000000000000000000000000000000000005014a,
  0x100000000000000000000000000000000000000014a, 0x10000000000000000000000000000000000000000000000014b,
  0x1000000000000000000000000000000000000000000000000000000014c, 0x100000000000000000000000000000000000000000000000000000000000000014d,
  0x10000000000000000000000000000000000000000000000000000000000000000000000014e,
  0x1000000000000000000000000000000000000000000000000000000000000000000000000000000014f,
  0x1000000000000000000000000000000000000000000000000000000000000000000000000000000000000000150,
  0x100000000000000000000000000000000000000000000000000000000000000000000000000000000000000000000000151,
  0x10000000000000000000000000000000000000000000000000000000000000000000000000000000000000000000000000000000152,
  0x1000000000000000000000000000000000000000000000000000000000000000000000000000000000000000000000000000000000000000153,
  0x100000000000000000000000000000000000000000000000000000000000000000000000000000000000000000000000000000000000000000000000154,
  0x10000000000000000000000000000000000000000000000000000000000000000000000000000000000000000000000000000000000000000000000000000000155,
  0x1000000000000000000000000000000000000000000000000000000000000000000000000000000000000000000000000000000000000000000000000000000000000000156,
  0x100000000000000000000000000000000000000000000000000000000000000000000000000000000000000000000000000000000000000000000000000000000000000000000000157,
  0x10000000000000000000000000000000000000000000000000000000000000000000000000000000000000000000000000000000000000000000000000000000000000000000000000000000158,
  0x1000000000000000000000000000000000000000000000000000000000000000000000000000000000000000000000000000000000000000000000000000000000000000000000000000000000000000159,
  0x10000000000000000000000000000000000000000000000000000000000000000000000000000000000000000000000000000000000000000000000000000000000000000000000000000000000000000000000015a,
  0x1000000000000000000000000000000000000000000000000000000000000000000000000000000000000000000000000000000000000000000000000000000000000000000000000000000000000000000000000000000015b,
  0x10000000000000000000000000000000000000000000000000000000000000000000000000000000000000000000000000000000000000000000000000000000000000000000000000000000000000000000000015c,
  0x100000000000000000000000000000000000000000000000000000000000000000000000000000000000000000000000000000000000000000000000000000000000000000000000000000000000000015d,
  0x1000000000000000000000000000000000000000000000000000000000000000000000000000000000000000000000000000000000000000000000000000000000000000000000000000000015e,
  0x10000000000000000000000000000000000000000000000000000000000000000000000000000000000000000000000000000000000000000000000000000000000000000000000015f,
  0x1000000000000000000000000000000000000000000000000000000000000000000000000000000000000000000000000000000000000000000000000000000000000000160,
  0x10000000000000000000000000000000000000000000000000000000000000000000000000000000000000000000000000000000000000000000000000000000161,
  0x100000000000000000000000000000000000000000000000000000000000000000000000000000000000000000000000000000000000000000000000162,
  0x1000000000000000000000000000000000000000000000000000000000000000000000000000000000000000000000000000000000000000163,
  0x10000000000000000000000000000000000000000000000000000000000000000000000000000000000000000000000000000000164,
  0x100000000000000000000000000000000000000000000000000000000000000000000000000000000000000000000000165,
  0x1000000000000000000000000000000000000000000000000000000000000000000000000000000000000000166,
  0x10000000000000000000000000000000000000000000000000000000000000000000000000000000167,
  0x100000000000000000000000000000000000000000000000000000000000000000000000168,
  0x1000000000000000000000000000000000000000000000000000000000000000169, 0x1000000000000000000000000000000000000000000000000000000016a,
  0x10000000000000000000000000000000000000000000000016b, 0x1000000000000000000000000000000000000000000000000000000016c,
  0x100000000000000000000000000000000000000000000000000000000000000016d,
  0x10000000000000000000000000000000000000000000000000000000000000000000000016e,
  0x1000000000000000000000000000000000000000000000000000000000000000000000000000000016f,
  0x1000000000000000000000000000000000000000000000000000000000000000000000000000000000000000170,
  0x100000000000000000000000000000000000000000000000000000000000000000000000000000000000000000000000171,
  0x10000000000000000000000000000000000000000000000000000000000000000000000000000000000000000000000000000000172,
  0x1000000000000000000000000000000000000000000000000000000000000000000000000000000000000000000000000000000000000000173,
  0x100000000000000000000000000000000000000000000000000000000000000000000000000000000000000000000000000000000000000000000000174,
  0x10000000000000000000000000000000000000000000000000000000000000000000000000000000000000000000000000000000000000000000000000000000175,
  0x1000000000000000000000000000000000000000000000000000000000000000000000000000000000000000000000000000000000000000000000000000000000000000176,
  0x100000000000000000000000000000000000000000000000000000000000000000000000000000000000000000000000000000000000000000000000000000000000000000000000177,
  0x10000000000000000000000000000000000000000000000000000000000000000000000000000000000000000000000000000000000000000000000000000000000000000000000000000000178,
  0x1000000000000000000000000000000000000000000000000000000000000000000000000000000000000000000000000000000000000000000000000000000000000000000000000000000000000000179,
  0x10000000000000000000000000000000000000000000000000000000000000000000000000000000000000000000000000000000000000000000000000000000000000000000000000000000000000000000000017a,
  0x1000000000000000000000000000000000000000000000000000000000000000000000000000000000000000000000000000000000000000000000000000000000000000000000000000000000000000000000000000000017b,
  0x10000000000000000000000000000000000000000000000017c, 0x1000000000000000000000000000000000000000000000000000000017d,
  0x100000000000000000000000000000000000000000000000000000000000000017e,
  0x10000000000000000000000000000000000000000000000000000000000000000000000017f,
  0x10000000000000000000000000000000000000000000000000000000000000000000000000000000180,
  0x1000000000000000000000000000000000000000000000000000000000000000000000000000000000000000181,
  0x100000000000000000000000000000000000000000000000000000000000000000000000000000000000000000000000182,
  0x10000000000000000000000000000000000000000000000000000000000000000000000000000000000000000000000000000000183,
  0x1000000000000000000000000000000000000000000000000000000000000000000000000000000000000000000000000000000000000000184,
  0x100000000000000000000000000000000000000000000000000000000000000000000000000000000000000000000000000000000000000000000000185,
  0x10000000000000000000000000000000000000000000000000000000000000000000000000000000000000000000000000000000000000000000000000000000186,
  0x1000000000000000000000000000000000000000000000000000000000000000000000000000000000000000000000000000000000000000000000000000000000000000187,
  0x100000000000000000000000000000000000000000000000000000000000000000000000000000000000000000000000000000000000000000000000000000000000000000000000188,
  0x10000000000000000000000000000000000000000000000000000000000000000000000000000000000000000000000000000000000000000000000000000000000000000000000000000000189,
  0x100000000000000000000000000000000000000000000000000000000000000000000000000000000000000000000000000000000000000000000000000000000000000000000000000000000000000018a,
  0x10000000000000000000000000000000000000000000000000000000000000000000000000000000000000000000000000000000000000000000000000000000000000000000000000000000000000000000000018b,
  0x1000000000000000000000000000000000000000000000000000000000000000000000000000000000000000000000000000000000000000000000000000000000000000000000000000000000000000000000000000000018c,
  0x10000000000000000000000000000000000000000000000000000000000000000000000000000000000000000000000000000000000000000000000000000000000000000000000000000000000000000000000018e,
  0x10000000000000000000000000000000000000000000000018f, 0x100000000000000000000000000000000000000000000050190,
  0x100000000000000000000000000000000000000000000000190, 0x10000000000000000000000000000000000000000000000000000000191,
  0x1000000000000000000000000000000000000000000000000000000000000000192,
  0x100000000000000000000000000000000000000000000000000000000000000000000000193,
  0x10000000000000000000000000000000000000000000000000000000000000000000000000000000194,
  0x1000000000000000000000000000000000000000000000000000000000000000000000000000000000000000195,
  0x100000000000000000000000000000000000000000000000000000000000000000000000000000000000000000000000196,
  0x10000000000000000000000000000000000000000000000000000000000000000000000000000000000000000000000000000000197,
  0x1000000000000000000000000000000000000000000000000000000000000000000000000000000000000000000000000000000000000000198,
  0x100000000000000000000000000000000000000000000000000000000000000000000000000000000000000000000000000000000000000000000000199,
  0x1000000000000000000000000000000000000000000000000000000000000000000000000000000000000000000000000000000000000000000000000000000019a,
  0x100000000000000000000000000000000000000000000000000000000000000000000000000000000000000000000000000000000000000000000000000000000000000019b,
  0x10000000000000000000000000000000000000000000000000000000000000000000000000000000000000000000000000000000000000000000000000000000000000000000000019c,
  0x1000000000000000000000000000000000000000000000000000000000000000000000000000000000000000000000000000000000000000000000000000000000000000000000000000000019d,
  0x100000000000000000000000000000000000000000000000000000000000000000000000000000000000000000000000000000000000000000000000000000000000000000000000000000000000000019e,
  0x10000000000000000000000000000000000000000000000000000000000000000000000000000000000000000000000000000000000000000000000000000000000000000000000000000000000000000000000019f,
  0x100000000000000000000000000000000000000000000000000000000000000000000000000000000000000000000000000000000000000000000000000000000000000000000000000000000000000000000000000000001a0,
  0x10000000000000000000000000000000000000000000000000000000000000000000000000000000000000000000000000000000000000000000000000000000000000000000000000000000000000000000000000000000000000001a1,
  0x100000000000000000000000000000000000000000000000000000000000000000000000000000000000000000000000000000000000000000000000000000000000000000000000000000000000000000000000000000001a2,
  0x1000000000000000000000000000000000000000000000000000000000000000000000000000000000000000000000000000000000000000000000000000000000000000000000000000000000000000000000001a3,
  0x10000000000000000000000000000000000000000000000000000000000000000000000000000000000000000000000000000000000000000000000000000000000000000000000000000000000000001a4,
  0x100000000000000000000000000000000000000000000000000000000000000000000000000000000000000000000000000000000000000000000000000000000000000000000000000000001a5,
  0x1000000000000000000000000000000000000000000000000000000000000000000000000000000000000000000000000000000000000000000000000000000000000000000000001a6,
  0x10000000000000000000000000000000000000000000000000000000000000000000000000000000000000000000000000000000000000000000000000000000000000001a7,
  0x100000000000000000000000000000000000000000000000000000000000000000000000000000000000000000000000000000000000000000000000000000001a8,
  0x1000000000000000000000000000000000000000000000000000000000000000000000000000000000000000000000000000000000000000000000001a9,
  0x10000000000000000000000000000000000000000000000000000000000000000000000000000000000000000000000000000000000000001aa,
  0x100000000000000000000000000000000000000000000000000000000000000000000000000000000000000000000000000000001ab,
  0x1000000000000000000000000000000000000000000000000000000000000000000000000000000000000000000000001ac,
  0x10000000000000000000000000000000000000000000000000000000000000000000000000000000000000001ad,
  0x100000000000000000000000000000000000000000000000000000000000000000000000000000001ae,
  0x1000000000000000000000000000000000000000000000000000000000000000000000001af,
  0x10000000000000000000000000000000000000000000000000000000000000001b0, 0x100000000000000000000000000000000000000000000000000000001b1,
  0x10000000000000000000000000000000000000000000000000000000000000001b2,
  0x1000000000000000000000000000000000000000000000000000000000000000000000001b3,
  0x100000000000000000000000000000000000000000000000000000000000000000000000000000001b4,
  0x10000000000000000000000000000000000000000000000000000000000000000000000000000000000000001b5,
  0x1000000000000000000000000000000000000000000000000000000000000000000000000000000000000000000000001b6,
  0x100000000000000000000000000000000000000000000000000000000000000000000000000000000000000000000000000000001b7,
  0x10000000000000000000000000000000000000000000000000000000000000000000000000000000000000000000000000000000000000001b8,
  0x1000000000000000000000000000000000000000000000000000000000000000000000000000000000000000000000000000000000000000000000001b9,
  0x100000000000000000000000000000000000000000000000000000000000000000000000000000000000000000000000000000000000000000000000000000001ba,
  0x10000000000000000000000000000000000000000000000000000000000000000000000000000000000000000000000000000000000000000000000000000000000000001bb,
  0x1000000000000000000000000000000000000000000000000000000000000000000000000000000000000000000000000000000000000000000000000000000000000000000000001bc,
  0x100000000000000000000000000000000000000000000000000000000000000000000000000000000000000000000000000000000000000000000000000000000000000000000000000000001bd,
  0x10000000000000000000000000000000000000000000000000000000000000000000000000000000000000000000000000000000000000000000000000000000000000000000000000000000000000001be,
  0x1000000000000000000000000000000000000000000000000000000000000000000000000000000000000000000000000000000000000000000000000000000000000000000000000000000000000000000000001bf,
  0x100000000000000000000000000000000000000000000000000000000000000000000000000000000000000000000000000000000000000000000000000000000000000000000000000000000000000000000000000000001c0,
  0x10000000000000000000000000000000000000000000000000000000000000000000000000000000000000000000000000000000000000000000000000000000000000000000000000000000000000000000000000000000000000001c1,
  0x100000000000000000000000000000000000000000000000000000001c2, 0x10000000000000000000000000000000000000000000000000000000000000001c3,
  0x1000000000000000000000000000000000000000000000000000000000000000000000001c4,
  0x100000000000000000000000000000000000000000000000000000000000000000000000000000001c5,
  0x10000000000000000000000000000000000000000000000000000000000000000000000000000000000000001c6,
  0x1000000000000000000000000000000000000000000000000000000000000000000000000000000000000000000000001c7,
  0x100000000000000000000000000000000000000000000000000000000000000000000000000000000000000000000000000000001c8,
  0x10000000000000000000000000000000000000000000000000000000000000000000000000000000000000000000000000000000000000001c9,
  0x1000000000000000000000000000000000000000000000000000000000000000000000000000000000000000000000000000000000000000000000001ca,
  0x100000000000000000000000000000000000000000000000000000000000000000000000000000000000000000000000000000000000000000000000000000001cb,
  0x10000000000000000000000000000000000000000000000000000000000000000000000000000000000000000000000000000000000000000000000000000000000000001cc,
  0x1000000000000000000000000000000000000000000000000000000000000000000000000000000000000000000000000000000000000000000000000000000000000000000000001cd,
  0x100000000000000000000000000000000000000000000000000000000000000000000000000000000000000000000000000000000000000000000000000000000000000000000000000000001ce,
  0x10000000000000000000000000000000000000000000000000000000000000000000000000000000000000000000000000000000000000000000000000000000000000000000000000000000000000001cf,
  0x1000000000000000000000000000000000000000000000000000000000000000000000000000000000000000000000000000000000000000000000000000000000000000000000000000000000000000000000001d0,
  0x100000000000000000000000000000000000000000000000000000000000000000000000000000000000000000000000000000000000000000000000000000000000000000000000000000000000000000000000000000001d1,
  0x10000000000000000000000000000000000000000000000000000000000000000000000000000000000000000000000000000000000000000000000000000000000000000000000000000000000000000000000000000000000000001d2,
  0x100000000000000000000000000000000000000000000000000000000000000000000000000000000000000000000000000000000000000000000000000000000000000000000000000000000000000000000000000000001d4,
  0x100000000000000000000000000000000000000000000000000000001d5, 0x100000000000000000000000000000000000000000000000000000501d6,
  0x100000000000000000000000000000000000000000000000000000001d6, 0x10000000000000000000000000000000000000000000000000000000000000001d7,
  0x1000000000000000000000000000000000000000000000000000000000000000000000001d8,
  0x100000000000000000000000000000000000000000000000000000000000000000000000000000001d9,
  0x10000000000000000000000000000000000000000000000000000000000000000000000000000000000000001da,
  0x1000000000000000000000000000000000000000000000000000000000000000000000000000000000000000000000001db,
  0x100000000000000000000000000000000000000000000000000000000000000000000000000000000000000000000000000000001dc,
  0x10000000000000000000000000000000000000000000000000000000000000000000000000000000000000000000000000000000000000001dd,
  0x1000000000000000000000000000000000000000000000000000000000000000000000000000000000000000000000000000000000000000000000001de,
  0x100000000000000000000000000000000000000000000000000000000000000000000000000000000000000000000000000000000000000000000000000000001df,
  0x10000000000000000000000000000000000000000000000000000000000000000000000000000000000000000000000000000000000000000000000000000000000000001e0,
  0x1000000000000000000000000000000000000000000000000000000000000000000000000000000000000000000000000000000000000000000000000000000000000000000000001e1,
  0x100000000000000000000000000000000000000000000000000000000000000000000000000000000000000000000000000000000000000000000000000000000000000000000000000000001e2,
  0x10000000000000000000000000000000000000000000000000000000000000000000000000000000000000000000000000000000000000000000000000000000000000000000000000000000000000001e3,
  0x1000000000000000000000000000000000000000000000000000000000000000000000000000000000000000000000000000000000000000000000000000000000000000000000000000000000000000000000001e4,
  0x100000000000000000000000000000000000000000000000000000000000000000000000000000000000000000000000000000000000000000000000000000000000000000000000000000000000000000000000000000001e5,
  0x10000000000000000000000000000000000000000000000000000000000000000000000000000000000000000000000000000000000000000000000000000000000000000000000000000000000000000000000000000000000000001e6,
  0x1000000000000000000000000000000000000000000000000000000000000000000000000000000000000000000000000000000000000000000000000000000000000000000000000000000000000000000000000000000000000000000000001e7,
  0x10000000000000000000000000000000000000000000000000000000000000000000000000000000000000000000000000000000000000000000000000000000000000000000000000000000000000000000000000000000000000001e8,
  0x100000000000000000000000000000000000000000000000000000000000000000000000000000000000000000000000000000000000000000000000000000000000000000000000000000000000000000000000000000001e9,
  0x1000000000000000000000000000000000000000000000000000000000000000000000000000000000000000000000000000000000000000000000000000000000000000000000000000000000000000000000001ea,
  0x10000000000000000000000000000000000000000000000000000000000000000000000000000000000000000000000000000000000000000000000000000000000000000000000000000000000000001eb,
  0x100000000000000000000000000000000000000000000000000000000000000000000000000000000000000000000000000000000000000000000000000000000000000000000000000000001ec,
  0x1000000000000000000000000000000000000000000000000000000000000000000000000000000000000000000000000000000000000000000000000000000000000000000000001ed,
  0x10000000000000000000000000000000000000000000000000000000000000000000000000000000000000000000000000000000000000000000000000000000000000001ee,
  0x100000000000000000000000000000000000000000000000000000000000000000000000000000000000000000000000000000000000000000000000000000001ef,
  0x1000000000000000000000000000000000000000000000000000000000000000000000000000000000000000000000000000000000000000000000001f0,
  0x10000000000000000000000000000000000000000000000000000000000000000000000000000000000000000000000000000000000000001f1,
  0x100000000000000000000000000000000000000000000000000000000000000000000000000000000000000000000000000000001f2,
  0x1000000000000000000000000000000000000000000000000000000000000000000000000000000000000000000000001f3,
  0x10000000000000000000000000000000000000000000000000000000000000000000000000000000000000001f4,
  0x100000000000000000000000000000000000000000000000000000000000000000000000000000001f5,
  0x1000000000000000000000000000000000000000000000000000000000000000000000001f6,
  0x10000000000000000000000000000000000000000000000000000000000000001f7,
  0x1000000000000000000000000000000000000000000000000000000000000000000000001f8,
  0x100000000000000000000000000000000000000000000000000000000000000000000000000000001f9,
  0x10000000000000000000000000000000000000000000000000000000000000000000000000000000000000001fa,
  0x1000000000000000000000000000000000000000000000000000000000000000000000000000000000000000000000001fb,
  0x100000000000000000000000000000000000000000000000000000000000000000000000000000000000000000000000000000001fc,
  0x10000000000000000000000000000000000000000000000000000000000000000000000000000000000000000000000000000000000000001fd,
  0x1000000000000000000000000000000000000000000000000000000000000000000000000000000000000000000000000000000000000000000000001fe,
  0x100000000000000000000000000000000000000000000000000000000000000000000000000000000000000000000000000000000000000000000000000000001ff,
  0x1000000000000000000000000000000000000000000000000000000000000000000000000000000000000000000000000000000000000000000000000000000000000000200,
  0x100000000000000000000000000000000000000000000000000000000000000000000000000000000000000000000000000000000000000000000000000000000000000000000000201,
  0x10000000000000000000000000000000000000000000000000000000000000000000000000000000000000000000000000000000000000000000000000000000000000000000000000000000202,
  0x1000000000000000000000000000000000000000000000000000000000000000000000000000000000000000000000000000000000000000000000000000000000000000000000000000000000000000203,
  0x100000000000000000000000000000000000000000000000000000000000000000000000000000000000000000000000000000000000000000000000000000000000000000000000000000000000000000000000204,
  0x10000000000000000000000000000000000000000000000000000000000000000000000000000000000000000000000000000000000000000000000000000000000000000000000000000000000000000000000000000000205,
  0x1000000000000000000000000000000000000000000000000000000000000000000000000000000000000000000000000000000000000000000000000000000000000000000000000000000000000000000000000000000000000000206,
  0x100000000000000000000000000000000000000000000000000000000000000000000000000000000000000000000000000000000000000000000000000000000000000000000000000000000000000000000000000000000000000000000000207,
  0x1000000000000000000000000000000000000000000000000000000000000000208,
  0x100000000000000000000000000000000000000000000000000000000000000000000000209,
  0x1000000000000000000000000000000000000000000000000000000000000000000000000000000020a,
  0x100000000000000000000000000000000000000000000000000000000000000000000000000000000000000020b,
  0x10000000000000000000000000000000000000000000000000000000000000000000000000000000000000000000000020c,
  0x1000000000000000000000000000000000000000000000000000000000000000000000000000000000000000000000000000000020d,
  0x100000000000000000000000000000000000000000000000000000000000000000000000000000000000000000000000000000000000000020e,
  0x10000000000000000000000000000000000000000000000000000000000000000000000000000000000000000000000000000000000000000000000020f,
  0x10000000000000000000000000000000000000000000000000000000000000000000000000000000000000000000000000000000000000000000000000000000210,
  0x1000000000000000000000000000000000000000000000000000000000000000000000000000000000000000000000000000000000000000000000000000000000000000211,
  0x100000000000000000000000000000000000000000000000000000000000000000000000000000000000000000000000000000000000000000000000000000000000000000000000212,
  0x10000000000000000000000000000000000000000000000000000000000000000000000000000000000000000000000000000000000000000000000000000000000000000000000000000000213,
  0x1000000000000000000000000000000000000000000000000000000000000000000000000000000000000000000000000000000000000000000000000000000000000000000000000000000000000000214,
  0x100000000000000000000000000000000000000000000000000000000000000000000000000000000000000000000000000000000000000000000000000000000000000000000000000000000000000000000000215,
  0x10000000000000000000000000000000000000000000000000000000000000000000000000000000000000000000000000000000000000000000000000000000000000000000000000000000000000000000000000000000216,
  0x1000000000000000000000000000000000000000000000000000000000000000000000000000000000000000000000000000000000000000000000000000000000000000000000000000000000000000000000000000000000000000217,
  0x100000000000000000000000000000000000000000000000000000000000000000000000000000000000000000000000000000000000000000000000000000000000000000000000000000000000000000000000000000000000000000000000218,
  0x100000000000000000000000000000000000000000000000000000000000000000000000000000000000000000000000000000000000000000000000000000000000000000000000000000000000000000000000000000000000000021a,
  0x100000000000000000000000000000000000000000000000000000000000000021b,
  0x100000000000000000000000000000000000000000000000000000000000005021c,
  0x100000000000000000000000000000000000000000000000000000000000000021c,
  0x10000000000000000000000000000000000000000000000000000000000000000000000021d,
  0x1000000000000000000000000000000000000000000000000000000000000000000000000000000021e,
  0x100000000000000000000000000000000000000000000000000000000000000000000000000000000000000021f,
  0x100000000000000000000000000000000000000000000000000000000000000000000000000000000000000000000000220,
  0x10000000000000000000000000000000000000000000000000000000000000000000000000000000000000000000000000000000221,
  0x1000000000000000000000000000000000000000000000000000000000000000000000000000000000000000000000000000000000000000222,
  0x100000000000000000000000000000000000000000000000000000000000000000000000000000000000000000000000000000000000000000000000223,
  0x10000000000000000000000000000000000000000000000000000000000000000000000000000000000000000000000000000000000000000000000000000000224,
  0x1000000000000000000000000000000000000000000000000000000000000000000000000000000000000000000000000000000000000000000000000000000000000000225,
  0x100000000000000000000000000000000000000000000000000000000000000000000000000000000000000000000000000000000000000000000000000000000000000000000000226,
  0x10000000000000000000000000000000000000000000000000000000000000000000000000000000000000000000000000000000000000000000000000000000000000000000000000000000227,
  0x1000000000000000000000000000000000000000000000000000000000000000000000000000000000000000000000000000000000000000000000000000000000000000000000000000000000000000228,
  0x100000000000000000000000000000000000000000000000000000000000000000000000000000000000000000000000000000000000000000000000000000000000000000000000000000000000000000000000229,
  0x1000000000000000000000000000000000000000000000000000000000000000000000000000000000000000000000000000000000000000000000000000000000000000000000000000000000000000000000000000000022a,
  0x100000000000000000000000000000000000000000000000000000000000000000000000000000000000000000000000000000000000000000000000000000000000000000000000000000000000000000000000000000000000000022b,
  0x10000000000000000000000000000000000000000000000000000000000000000000000000000000000000000000000000000000000000000000000000000000000000000000000000000000000000000000000000000000000000000000000022c,
  0x1000000000000000000000000000000000000000000000000000000000000000000000000000000000000000000000000000000000000000000000000000000000000000000000000000000000000000000000000000000000000000000000000000000022d,
  0x10000000000000000000000000000000000000000000000000000000000000000000000000000000000000000000000000000000000000000000000000000000000000000000000000000000000000000000000000000000000000000000000022e,
  0x100000000000000000000000000000000000000000000000000000000000000000000000000000000000000000000000000000000000000000000000000000000000000000000000000000000000000000000000000000000000000022f,
  0x10000000000000000000000000000000000000000000000000000000000000000000000000000000000000000000000000000000000000000000000000000000000000000000000000000000000000000000000000000000230,
  0x100000000000000000000000000000000000000000000000000000000000000000000000000000000000000000000000000000000000000000000000000000000000000000000000000000000000000000000000231,
  0x1000000000000000000000000000000000000000000000000000000000000000000000000000000000000000000000000000000000000000000000000000000000000000000000000000000000000000232,
  0x10000000000000000000000000000000000000000000000000000000000000000000000000000000000000000000000000000000000000000000000000000000000000000000000000000000233,
  0x100000000000000000000000000000000000000000000000000000000000000000000000000000000000000000000000000000000000000000000000000000000000000000000000234,
  0x1000000000000000000000000000000000000000000000000000000000000000000000000000000000000000000000000000000000000000000000000000000000000000235,
  0x10000000000000000000000000000000000000000000000000000000000000000000000000000000000000000000000000000000000000000000000000000000236,
  0x100000000000000000000000000000000000000000000000000000000000000000000000000000000000000000000000000000000000000000000000237,
  0x1000000000000000000000000000000000000000000000000000000000000000000000000000000000000000000000000000000000000000238,
  0x10000000000000000000000000000000000000000000000000000000000000000000000000000000000000000000000000000000239,
  0x10000000000000000000000000000000000000000000000000000000000000000000000000000000000000000000000023a,
  0x100000000000000000000000000000000000000000000000000000000000000000000000000000000000000023b,
  0x1000000000000000000000000000000000000000000000000000000000000000000000000000000023c,
  0x10000000000000000000000000000000000000000000000000000000000000000000000023d,
  0x1000000000000000000000000000000000000000000000000000000000000000000000000000000023e,
  0x100000000000000000000000000000000000000000000000000000000000000000000000000000000000000023f,
  0x100000000000000000000000000000000000000000000000000000000000000000000000000000000000000000000000240,
  0x10000000000000000000000000000000000000000000000000000000000000000000000000000000000000000000000000000000241,
  0x1000000000000000000000000000000000000000000000000000000000000000000000000000000000000000000000000000000000000000242,
  0x100000000000000000000000000000000000000000000000000000000000000000000000000000000000000000000000000000000000000000000000243,
  0x10000000000000000000000000000000000000000000000000000000000000000000000000000000000000000000000000000000000000000000000000000000244,
  0x1000000000000000000000000000000000000000000000000000000000000000000000000000000000000000000000000000000000000000000000000000000000000000245,
  0x100000000000000000000000000000000000000000000000000000000000000000000000000000000000000000000000000000000000000000000000000000000000000000000000246,
  0x10000000000000000000000000000000000000000000000000000000000000000000000000000000000000000000000000000000000000000000000000000000000000000000000000000000247,
  0x1000000000000000000000000000000000000000000000000000000000000000000000000000000000000000000000000000000000000000000000000000000000000000000000000000000000000000248,
  0x100000000000000000000000000000000000000000000000000000000000000000000000000000000000000000000000000000000000000000000000000000000000000000000000000000000000000000000000249,
  0x1000000000000000000000000000000000000000000000000000000000000000000000000000000000000000000000000000000000000000000000000000000000000000000000000000000000000000000000000000000024a,
  0x100000000000000000000000000000000000000000000000000000000000000000000000000000000000000000000000000000000000000000000000000000000000000000000000000000000000000000000000000000000000000024b,
  0x10000000000000000000000000000000000000000000000000000000000000000000000000000000000000000000000000000000000000000000000000000000000000000000000000000000000000000000000000000000000000000000000024c,
  0x1000000000000000000000000000000000000000000000000000000000000000000000000000000000000000000000000000000000000000000000000000000000000000000000000000000000000000000000000000000000000000000000000000000024d,
  0x10000000000000000000000000000000000000000000000000000000000000000000000024e,
  0x1000000000000000000000000000000000000000000000000000000000000000000000000000000024f,
  0x1000000000000000000000000000000000000000000000000000000000000000000000000000000000000000250,
  0x100000000000000000000000000000000000000000000000000000000000000000000000000000000000000000000000251,
  0x10000000000000000000000000000000000000000000000000000000000000000000000000000000000000000000000000000000252,
  0x1000000000000000000000000000000000000000000000000000000000000000000000000000000000000000000000000000000000000000253,
  0x100000000000000000000000000000000000000000000000000000000000000000000000000000000000000000000000000000000000000000000000254,
  0x10000000000000000000000000000000000000000000000000000000000000000000000000000000000000000000000000000000000000000000000000000000255,
  0x1000000000000000000000000000000000000000000000000000000000000000000000000000000000000000000000000000000000000000000000000000000000000000256,
  0x100000000000000000000000000000000000000000000000000000000000000000000000000000000000000000000000000000000000000000000000000000000000000000000000257,
  0x10000000000000000000000000000000000000000000000000000000000000000000000000000000000000000000000000000000000000000000000000000000000000000000000000000000258,
  0x1000000000000000000000000000000000000000000000000000000000000000000000000000000000000000000000000000000000000000000000000000000000000000000000000000000000000000259,
  0x10000000000000000000000000000000000000000000000000000000000000000000000000000000000000000000000000000000000000000000000000000000000000000000000000000000000000000000000025a,
  0x1000000000000000000000000000000000000000000000000000000000000000000000000000000000000000000000000000000000000000000000000000000000000000000000000000000000000000000000000000000025b,
  0x100000000000000000000000000000000000000000000000000000000000000000000000000000000000000000000000000000000000000000000000000000000000000000000000000000000000000000000000000000000000000025c,
  0x10000000000000000000000000000000000000000000000000000000000000000000000000000000000000000000000000000000000000000000000000000000000000000000000000000000000000000000000000000000000000000000000025d,
  0x1000000000000000000000000000000000000000000000000000000000000000000000000000000000000000000000000000000000000000000000000000000000000000000000000000000000000000000000000000000000000000000000000000000025e,
  0x100000000000000000000000000000000000000000000000000000000000000000000000000000000000000000000000000000000000000000000000000000000000000000000000000000000000000000000000000000000000000000000000260,
  0x100000000000000000000000000000000000000000000000000000000000000000000000261,
  0x100000000000000000000000000000000000000000000000000000000000000000000050262,
  0x100000000000000000000000000000000000000000000000000000000000000000000000262,
  0x10000000000000000000000000000000000000000000000000000000000000000000000000000000263,
  0x1000000000000000000000000000000000000000000000000000000000000000000000000000000000000000264,
  0x100000000000000000000000000000000000000000000000000000000000000000000000000000000000000000000000265,
  0x10000000000000000000000000000000000000000000000000000000000000000000000000000000000000000000000000000000266,
  0x1000000000000000000000000000000000000000000000000000000000000000000000000000000000000000000000000000000000000000267,
  0x100000000000000000000000000000000000000000000000000000000000000000000000000000000000000000000000000000000000000000000000268,
  0x10000000000000000000000000000000000000000000000000000000000000000000000000000000000000000000000000000000000000000000000000000000269,
  0x100000000000000000000000000000000000000000000000000000000000000000000000000000000000000000000000000000000000000000000000000000000000000026a,
  0x10000000000000000000000000000000000000000000000000000000000000000000000000000000000000000000000000000000000000000000000000000000000000000000000026b,
  0x1000000000000000000000000000000000000000000000000000000000000000000000000000000000000000000000000000000000000000000000000000000000000000000000000000000026c,
  0x100000000000000000000000000000000000000000000000000000000000000000000000000000000000000000000000000000000000000000000000000000000000000000000000000000000000000026d,
  0x10000000000000000000000000000000000000000000000000000000000000000000000000000000000000000000000000000000000000000000000000000000000000000000000000000000000000000000000026e,
  0x1000000000000000000000000000000000000000000000000000000000000000000000000000000000000000000000000000000000000000000000000000000000000000000000000000000000000000000000000000000026f,
  0x1000000000000000000000000000000000000000000000000000000000000000000000000000000000000000000000000000000000000000000000000000000000000000000000000000000000000000000000000000000000000000270,
  0x100000000000000000000000000000000000000000000000000000000000000000000000000000000000000000000000000000000000000000000000000000000000000000000000000000000000000000000000000000000000000000000000271,
  0x10000000000000000000000000000000000000000000000000000000000000000000000000000000000000000000000000000000000000000000000000000000000000000000000000000000000000000000000000000000000000000000000000000000272,
  0x1000000000000000000000000000000000000000000000000000000000000000000000000000000000000000000000000000000000000000000000000000000000000000000000000000000000000000000000000000000000000000000000000000000000000000273,
  0x10000000000000000000000000000000000000000000000000000000000000000000000000000000000000000000000000000000000000000000000000000000000000000000000000000000000000000000000000000000000000000000000000000000274,
  0x100000000000000000000000000000000000000000000000000000000000000000000000000000000000000000000000000000000000000000000000000000000000000000000000000000000000000000000000000000000000000000000000275,
  0x1000000000000000000000000000000000000000000000000000000000000000000000000000000000000000000000000000000000000000000000000000000000000000000000000000000000000000000000000000000000000000276,
  0x10000000000000000000000000000000000000000000000000000000000000000000000000000000000000000000000000000000000000000000000000000000000000000000000000000000000000000000000000000000277,
  0x100000000000000000000000000000000000000000000000000000000000000000000000000000000000000000000000000000000000000000000000000000000000000000000000000000000000000000000000278,
  0x1000000000000000000000000000000000000000000000000000000000000000000000000000000000000000000000000000000000000000000000000000000000000000000000000000000000000000279,
  0x1000000000000000000000000000000000000000000000000000000000000000000000000000000000000000000000000000000000000000000000000000000000000000000000000000000027a,
  0x10000000000000000000000000000000000000000000000000000000000000000000000000000000000000000000000000000000000000000000000000000000000000000000000027b,
  0x100000000000000000000000000000000000000000000000000000000000000000000000000000000000000000000000000000000000000000000000000000000000000027c,
  0x1000000000000000000000000000000000000000000000000000000000000000000000000000000000000000000000000000000000000000000000000000000027d,
  0x10000000000000000000000000000000000000000000000000000000000000000000000000000000000000000000000000000000000000000000000027e,
  0x100000000000000000000000000000000000000000000000000000000000000000000000000000000000000000000000000000000000000027f,
  0x10000000000000000000000000000000000000000000000000000000000000000000000000000000000000000000000000000000280,
  0x100000000000000000000000000000000000000000000000000000000000000000000000000000000000000000000000281,
  0x1000000000000000000000000000000000000000000000000000000000000000000000000000000000000000282,
  0x10000000000000000000000000000000000000000000000000000000000000000000000000000000283,
  0x1000000000000000000000000000000000000000000000000000000000000000000000000000000000000000284,
  0x100000000000000000000000000000000000000000000000000000000000000000000000000000000000000000000000285,
  0x10000000000000000000000000000000000000000000000000000000000000000000000000000000000000000000000000000000286,
  0x1000000000000000000000000000000000000000000000000000000000000000000000000000000000000000000000000000000000000000287,
  0x100000000000000000000000000000000000000000000000000000000000000000000000000000000000000000000000000000000000000000000000288,
  0x10000000000000000000000000000000000000000000000000000000000000000000000000000000000000000000000000000000000000000000000000000000289,
  0x100000000000000000000000000000000000000000000000000000000000000000000000000000000000000000000000000000000000000000000000000000000000000028a,
  0x10000000000000000000000000000000000000000000000000000000000000000000000000000000000000000000000000000000000000000000000000000000000000000000000028b,
  0x1000000000000000000000000000000000000000000000000000000000000000000000000000000000000000000000000000000000000000000000000000000000000000000000000000000028c,
  0x100000000000000000000000000000000000000000000000000000000000000000000000000000000000000000000000000000000000000000000000000000000000000000000000000000000000000028d,
  0x10000000000000000000000000000000000000000000000000000000000000000000000000000000000000000000000000000000000000000000000000000000000000000000000000000000000000000000000028e,
  0x1000000000000000000000000000000000000000000000000000000000000000000000000000000000000000000000000000000000000000000000000000000000000000000000000000000000000000000000000000000028f,
  0x1000000000000000000000000000000000000000000000000000000000000000000000000000000000000000000000000000000000000000000000000000000000000000000000000000000000000000000000000000000000000000290,
  0x100000000000000000000000000000000000000000000000000000000000000000000000000000000000000000000000000000000000000000000000000000000000000000000000000000000000000000000000000000000000000000000000291,
  0x10000000000000000000000000000000000000000000000000000000000000000000000000000000000000000000000000000000000000000000000000000000000000000000000000000000000000000000000000000000000000000000000000000000292,
  0x1000000000000000000000000000000000000000000000000000000000000000000000000000000000000000000000000000000000000000000000000000000000000000000000000000000000000000000000000000000000000000000000000000000000000000293,
  0x10000000000000000000000000000000000000000000000000000000000000000000000000000000294,
  0x1000000000000000000000000000000000000000000000000000000000000000000000000000000000000000295,
  0x100000000000000000000000000000000000000000000000000000000000000000000000000000000000000000000000296,
  0x10000000000000000000000000000000000000000000000000000000000000000000000000000000000000000000000000000000297,
  0x1000000000000000000000000000000000000000000000000000000000000000000000000000000000000000000000000000000000000000298,
  0x100000000000000000000000000000000000000000000000000000000000000000000000000000000000000000000000000000000000000000000000299,
  0x1000000000000000000000000000000000000000000000000000000000000000000000000000000000000000000000000000000000000000000000000000000029a,
  0x100000000000000000000000000000000000000000000000000000000000000000000000000000000000000000000000000000000000000000000000000000000000000029b,
  0x10000000000000000000000000000000000000000000000000000000000000000000000000000000000000000000000000000000000000000000000000000000000000000000000029c,
  0x1000000000000000000000000000000000000000000000000000000000000000000000000000000000000000000000000000000000000000000000000000000000000000000000000000000029d,
  0x100000000000000000000000000000000000000000000000000000000000000000000000000000000000000000000000000000000000000000000000000000000000000000000000000000000000000029e,
  0x10000000000000000000000000000000000000000000000000000000000000000000000000000000000000000000000000000000000000000000000000000000000000000000000000000000000000000000000029f,
  0x100000000000000000000000000000000000000000000000000000000000000000000000000000000000000000000000000000000000000000000000000000000000000000000000000000000000000000000000000000002a0,
  0x10000000000000000000000000000000000000000000000000000000000000000000000000000000000000000000000000000000000000000000000000000000000000000000000000000000000000000000000000000000000000002a1,
  0x1000000000000000000000000000000000000000000000000000000000000000000000000000000000000000000000000000000000000000000000000000000000000000000000000000000000000000000000000000000000000000000000002a2,
  0x100000000000000000000000000000000000000000000000000000000000000000000000000000000000000000000000000000000000000000000000000000000000000000000000000000000000000000000000000000000000000000000000000000002a3,
  0x10000000000000000000000000000000000000000000000000000000000000000000000000000000000000000000000000000000000000000000000000000000000000000000000000000000000000000000000000000000000000000000000000000000000000002a4,
  0x100000000000000000000000000000000000000000000000000000000000000000000000000000000000000000000000000000000000000000000000000000000000000000000000000000000000000000000000000000000000000000000000000000002a6,
  0x100000000000000000000000000000000000000000000000000000000000000000000000000000002a7,
  0x100000000000000000000000000000000000000000000000000000000000000000000000000000502a8,
  0x100000000000000000000000000000000000000000000000000000000000000000000000000000002a8,
  0x10000000000000000000000000000000000000000000000000000000000000000000000000000000000000002a9,
  0x1000000000000000000000000000000000000000000000000000000000000000000000000000000000000000000000002aa,
  0x100000000000000000000000000000000000000000000000000000000000000000000000000000000000000000000000000000002ab,
  0x10000000000000000000000000000000000000000000000000000000000000000000000000000000000000000000000000000000000000002ac,
  0x1000000000000000000000000000000000000000000000000000000000000000000000000000000000000000000000000000000000000000000000002ad,
  0x100000000000000000000000000000000000000000000000000000000000000000000000000000000000000000000000000000000000000000000000000000002ae,
  0x10000000000000000000000000000000000000000000000000000000000000000000000000000000000000000000000000000000000000000000000000000000000000002af,
  0x1000000000000000000000000000000000000000000000000000000000000000000000000000000000000000000000000000000000000000000000000000000000000000000000002b0,
  0x100000000000000000000000000000000000000000000000000000000000000000000000000000000000000000000000000000000000000000000000000000000000000000000000000000002b1,
  0x10000000000000000000000000000000000000000000000000000000000000000000000000000000000000000000000000000000000000000000000000000000000000000000000000000000000000002b2,
  0x1000000000000000000000000000000000000000000000000000000000000000000000000000000000000000000000000000000000000000000000000000000000000000000000000000000000000000000000002b3,
  0x100000000000000000000000000000000000000000000000000000000000000000000000000000000000000000000000000000000000000000000000000000000000000000000000000000000000000000000000000000002b4,
  0x10000000000000000000000000000000000000000000000000000000000000000000000000000000000000000000000000000000000000000000000000000000000000000000000000000000000000000000000000000000000000002b5,
  0x1000000000000000000000000000000000000000000000000000000000000000000000000000000000000000000000000000000000000000000000000000000000000000000000000000000000000000000000000000000000000000000000002b6,
  0x100000000000000000000000000000000000000000000000000000000000000000000000000000000000000000000000000000000000000000000000000000000000000000000000000000000000000000000000000000000000000000000000000000002b7,
  0x10000000000000000000000000000000000000000000000000000000000000000000000000000000000000000000000000000000000000000000000000000000000000000000000000000000000000000000000000000000000000000000000000000000000000002b8,
  0x1000000000000000000000000000000000000000000000000000000000000000000000000000000000000000000000000000000000000000000000000000000000000000000000000000000000000000000000000000000000000000000000000000000000000000000000002b9,
  0x10000000000000000000000000000000000000000000000000000000000000000000000000000000000000000000000000000000000000000000000000000000000000000000000000000000000000000000000000000000000000000000000000000000000000002ba,
  0x100000000000000000000000000000000000000000000000000000000000000000000000000000000000000000000000000000000000000000000000000000000000000000000000000000000000000000000000000000000000000000000000000000002bb,
  0x1000000000000000000000000000000000000000000000000000000000000000000000000000000000000000000000000000000000000000000000000000000000000000000000000000000000000000000000000000000000000000000000002bc,
  0x10000000000000000000000000000000000000000000000000000000000000000000000000000000000000000000000000000000000000000000000000000000000000000000000000000000000000000000000000000000000000002bd,
  0x100000000000000000000000000000000000000000000000000000000000000000000000000000000000000000000000000000000000000000000000000000000000000000000000000000000000000000000000000000002be,
  0x1000000000000000000000000000000000000000000000000000000000000000000000000000000000000000000000000000000000000000000000000000000000000000000000000000000000000000000000002bf,
  0x10000000000000000000000000000000000000000000000000000000000000000000000000000000000000000000000000000000000000000000000000000000000000000000000000000000000000002c0,
  0x100000000000000000000000000000000000000000000000000000000000000000000000000000000000000000000000000000000000000000000000000000000000000000000000000000002c1,
  0x1000000000000000000000000000000000000000000000000000000000000000000000000000000000000000000000000000000000000000000000000000000000000000000000002c2,
  0x10000000000000000000000000000000000000000000000000000000000000000000000000000000000000000000000000000000000000000000000000000000000000002c3,
  0x100000000000000000000000000000000000000000000000000000000000000000000000000000000000000000000000000000000000000000000000000000002c4,
  0x1000000000000000000000000000000000000000000000000000000000000000000000000000000000000000000000000000000000000000000000002c5,
  0x10000000000000000000000000000000000000000000000000000000000000000000000000000000000000000000000000000000000000002c6,
  0x100000000000000000000000000000000000000000000000000000000000000000000000000000000000000000000000000000002c7,
  0x1000000000000000000000000000000000000000000000000000000000000000000000000000000000000000000000002c8,
  0x10000000000000000000000000000000000000000000000000000000000000000000000000000000000000002c9,
  0x1000000000000000000000000000000000000000000000000000000000000000000000000000000000000000000000002ca,
  0x100000000000000000000000000000000000000000000000000000000000000000000000000000000000000000000000000000002cb,
  0x10000000000000000000000000000000000000000000000000000000000000000000000000000000000000000000000000000000000000002cc,
  0x1000000000000000000000000000000000000000000000000000000000000000000000000000000000000000000000000000000000000000000000002cd,
  0x100000000000000000000000000000000000000000000000000000000000000000000000000000000000000000000000000000000000000000000000000000002ce,
  0x10000000000000000000000000000000000000000000000000000000000000000000000000000000000000000000000000000000000000000000000000000000000000002cf,
  0x1000000000000000000000000000000000000000000000000000000000000000000000000000000000000000000000000000000000000000000000000000000000000000000000002d0,
  0x100000000000000000000000000000000000000000000000000000000000000000000000000000000000000000000000000000000000000000000000000000000000000000000000000000002d1,
  0x10000000000000000000000000000000000000000000000000000000000000000000000000000000000000000000000000000000000000000000000000000000000000000000000000000000000000002d2,
  0x1000000000000000000000000000000000000000000000000000000000000000000000000000000000000000000000000000000000000000000000000000000000000000000000000000000000000000000000002d3,
  0x100000000000000000000000000000000000000000000000000000000000000000000000000000000000000000000000000000000000000000000000000000000000000000000000000000000000000000000000000000002d4,
  0x10000000000000000000000000000000000000000000000000000000000000000000000000000000000000000000000000000000000000000000000000000000000000000000000000000000000000000000000000000000000000002d5,
  0x1000000000000000000000000000000000000000000000000000000000000000000000000000000000000000000000000000000000000000000000000000000000000000000000000000000000000000000000000000000000000000000000002d6,
  0x100000000000000000000000000000000000000000000000000000000000000000000000000000000000000000000000000000000000000000000000000000000000000000000000000000000000000000000000000000000000000000000000000000002d7,
  0x10000000000000000000000000000000000000000000000000000000000000000000000000000000000000000000000000000000000000000000000000000000000000000000000000000000000000000000000000000000000000000000000000000000000000002d8,
  0x1000000000000000000000000000000000000000000000000000000000000000000000000000000000000000000000000000000000000000000000000000000000000000000000000000000000000000000000000000000000000000000000000000000000000000000000002d9,
  0x10000000000000000000000000000000000000000000000000000000000000000000000000000000000000002da,
  0x1000000000000000000000000000000000000000000000000000000000000000000000000000000000000000000000002db,
  0x100000000000000000000000000000000000000000000000000000000000000000000000000000000000000000000000000000002dc,
  0x10000000000000000000000000000000000000000000000000000000000000000000000000000000000000000000000000000000000000002dd,
  0x1000000000000000000000000000000000000000000000000000000000000000000000000000000000000000000000000000000000000000000000002de,
  0x100000000000000000000000000000000000000000000000000000000000000000000000000000000000000000000000000000000000000000000000000000002df,
  0x10000000000000000000000000000000000000000000000000000000000000000000000000000000000000000000000000000000000000000000000000000000000000002e0,
  0x1000000000000000000000000000000000000000000000000000000000000000000000000000000000000000000000000000000000000000000000000000000000000000000000002e1,
  0x100000000000000000000000000000000000000000000000000000000000000000000000000000000000000000000000000000000000000000000000000000000000000000000000000000002e2,
  0x10000000000000000000000000000000000000000000000000000000000000000000000000000000000000000000000000000000000000000000000000000000000000000000000000000000000000002e3,
  0x1000000000000000000000000000000000000000000000000000000000000000000000000000000000000000000000000000000000000000000000000000000000000000000000000000000000000000000000002e4,
  0x100000000000000000000000000000000000000000000000000000000000000000000000000000000000000000000000000000000000000000000000000000000000000000000000000000000000000000000000000000002e5,
  0x10000000000000000000000000000000000000000000000000000000000000000000000000000000000000000000000000000000000000000000000000000000000000000000000000000000000000000000000000000000000000002e6,
  0x1000000000000000000000000000000000000000000000000000000000000000000000000000000000000000000000000000000000000000000000000000000000000000000000000000000000000000000000000000000000000000000000002e7,
  0x100000000000000000000000000000000000000000000000000000000000000000000000000000000000000000000000000000000000000000000000000000000000000000000000000000000000000000000000000000000000000000000000000000002e8,
  0x10000000000000000000000000000000000000000000000000000000000000000000000000000000000000000000000000000000000000000000000000000000000000000000000000000000000000000000000000000000000000000000000000000000000000002e9,
  0x1000000000000000000000000000000000000000000000000000000000000000000000000000000000000000000000000000000000000000000000000000000000000000000000000000000000000000000000000000000000000000000000000000000000000000000000002ea,
  0x10000000000000000000000000000000000000000000000000000000000000000000000000000000000000000000000000000000000000000000000000000000000000000000000000000000000000000000000000000000000000000000000000000000000000002ec,
  0x10000000000000000000000000000000000000000000000000000000000000000000000000000000000000002ed,
  0x10000000000000000000000000000000000000000000000000000000000000000000000000000000000000502ee,
  0x10000000000000000000000000000000000000000000000000000000000000000000000000000000000000002ee,
  0x1000000000000000000000000000000000000000000000000000000000000000000000000000000000000000000000002ef,
  0x100000000000000000000000000000000000000000000000000000000000000000000000000000000000000000000000000000002f0,
  0x10000000000000000000000000000000000000000000000000000000000000000000000000000000000000000000000000000000000000002f1,
  0x1000000000000000000000000000000000000000000000000000000000000000000000000000000000000000000000000000000000000000000000002f2,
  0x100000000000000000000000000000000000000000000000000000000000000000000000000000000000000000000000000000000000000000000000000000002f3,
  0x10000000000000000000000000000000000000000000000000000000000000000000000000000000000000000000000000000000000000000000000000000000000000002f4,
  0x1000000000000000000000000000000000000000000000000000000000000000000000000000000000000000000000000000000000000000000000000000000000000000000000002f5,
  0x100000000000000000000000000000000000000000000000000000000000000000000000000000000000000000000000000000000000000000000000000000000000000000000000000000002f6,
  0x10000000000000000000000000000000000000000000000000000000000000000000000000000000000000000000000000000000000000000000000000000000000000000000000000000000000000002f7,
  0x1000000000000000000000000000000000000000000000000000000000000000000000000000000000000000000000000000000000000000000000000000000000000000000000000000000000000000000000002f8,
  0x100000000000000000000000000000000000000000000000000000000000000000000000000000000000000000000000000000000000000000000000000000000000000000000000000000000000000000000000000000002f9,
  0x10000000000000000000000000000000000000000000000000000000000000000000000000000000000000000000000000000000000000000000000000000000000000000000000000000000000000000000000000000000000000002fa,
  0x1000000000000000000000000000000000000000000000000000000000000000000000000000000000000000000000000000000000000000000000000000000000000000000000000000000000000000000000000000000000000000000000002fb,
  0x100000000000000000000000000000000000000000000000000000000000000000000000000000000000000000000000000000000000000000000000000000000000000000000000000000000000000000000000000000000000000000000000000000002fc,
  0x10000000000000000000000000000000000000000000000000000000000000000000000000000000000000000000000000000000000000000000000000000000000000000000000000000000000000000000000000000000000000000000000000000000000000002fd,
  0x1000000000000000000000000000000000000000000000000000000000000000000000000000000000000000000000000000000000000000000000000000000000000000000000000000000000000000000000000000000000000000000000000000000000000000000000002fe,
  0x100000000000000000000000000000000000000000000000000000000000000000000000000000000000000000000000000000000000000000000000000000000000000000000000000000000000000000000000000000000000000000000000000000000000000000000000000000002ff,
  0x100000000000000000000000000000000000000000000000000000000000000000000000000000000000000000000000000000000000000000000000000000000000000000000000000000000000000000000000000000000000000000000000000000000000000000000000300,
  0x1000000000000000000000000000000000000000000000000000000000000000000000000000000000000000000000000000000000000000000000000000000000000000000000000000000000000000000000000000000000000000000000000000000000000000301,
  0x10000000000000000000000000000000000000000000000000000000000000000000000000000000000000000000000000000000000000000000000000000000000000000000000000000000000000000000000000000000000000000000000000000000302,
  0x100000000000000000000000000000000000000000000000000000000000000000000000000000000000000000000000000000000000000000000000000000000000000000000000000000000000000000000000000000000000000000000000303,
  0x1000000000000000000000000000000000000000000000000000000000000000000000000000000000000000000000000000000000000000000000000000000000000000000000000000000000000000000000000000000000000000304,
  0x10000000000000000000000000000000000000000000000000000000000000000000000000000000000000000000000000000000000000000000000000000000000000000000000000000000000000000000000000000000305,
  0x100000000000000000000000000000000000000000000000000000000000000000000000000000000000000000000000000000000000000000000000000000000000000000000000000000000000000000000000306,
  0x1000000000000000000000000000000000000000000000000000000000000000000000000000000000000000000000000000000000000000000000000000000000000000000000000000000000000000307,
  0x10000000000000000000000000000000000000000000000000000000000000000000000000000000000000000000000000000000000000000000000000000000000000000000000000000000308,
  0x100000000000000000000000000000000000000000000000000000000000000000000000000000000000000000000000000000000000000000000000000000000000000000000000309,
  0x100000000000000000000000000000000000000000000000000000000000000000000000000000000000000000000000000000000000000000000000000000000000000030a,
  0x1000000000000000000000000000000000000000000000000000000000000000000000000000000000000000000000000000000000000000000000000000000030b,
  0x10000000000000000000000000000000000000000000000000000000000000000000000000000000000000000000000000000000000000000000000030c,
  0x100000000000000000000000000000000000000000000000000000000000000000000000000000000000000000000000000000000000000030d,
  0x1000000000000000000000000000000000000000000000000000000000000000000000000000000000000000000000000000000030e,
  0x10000000000000000000000000000000000000000000000000000000000000000000000000000000000000000000000030f,
  0x10000000000000000000000000000000000000000000000000000000000000000000000000000000000000000000000000000000310,
  0x1000000000000000000000000000000000000000000000000000000000000000000000000000000000000000000000000000000000000000311,
  0x100000000000000000000000000000000000000000000000000000000000000000000000000000000000000000000000000000000000000000000000312,
  0x10000000000000000000000000000000000000000000000000000000000000000000000000000000000000000000000000000000000000000000000000000000313,
  0x1000000000000000000000000000000000000000000000000000000000000000000000000000000000000000000000000000000000000000000000000000000000000000314,
  0x100000000000000000000000000000000000000000000000000000000000000000000000000000000000000000000000000000000000000000000000000000000000000000000000315,
  0x10000000000000000000000000000000000000000000000000000000000000000000000000000000000000000000000000000000000000000000000000000000000000000000000000000000316,
  0x1000000000000000000000000000000000000000000000000000000000000000000000000000000000000000000000000000000000000000000000000000000000000000000000000000000000000000317,
  0x100000000000000000000000000000000000000000000000000000000000000000000000000000000000000000000000000000000000000000000000000000000000000000000000000000000000000000000000318,
  0x10000000000000000000000000000000000000000000000000000000000000000000000000000000000000000000000000000000000000000000000000000000000000000000000000000000000000000000000000000000319,
  0x100000000000000000000000000000000000000000000000000000000000000000000000000000000000000000000000000000000000000000000000000000000000000000000000000000000000000000000000000000000000000031a,
  0x10000000000000000000000000000000000000000000000000000000000000000000000000000000000000000000000000000000000000000000000000000000000000000000000000000000000000000000000000000000000000000000000031b,
  0x1000000000000000000000000000000000000000000000000000000000000000000000000000000000000000000000000000000000000000000000000000000000000000000000000000000000000000000000000000000000000000000000000000000031c,
  0x100000000000000000000000000000000000000000000000000000000000000000000000000000000000000000000000000000000000000000000000000000000000000000000000000000000000000000000000000000000000000000000000000000000000000031d,
  0x10000000000000000000000000000000000000000000000000000000000000000000000000000000000000000000000000000000000000000000000000000000000000000000000000000000000000000000000000000000000000000000000000000000000000000000000031e,
  0x1000000000000000000000000000000000000000000000000000000000000000000000000000000000000000000000000000000000000000000000000000000000000000000000000000000000000000000000000000000000000000000000000000000000000000000000000000000031f,
  0x100000000000000000000000000000000000000000000000000000000000000000000000000000000000000000000000320,
  0x10000000000000000000000000000000000000000000000000000000000000000000000000000000000000000000000000000000321,
  0x1000000000000000000000000000000000000000000000000000000000000000000000000000000000000000000000000000000000000000322,
  0x100000000000000000000000000000000000000000000000000000000000000000000000000000000000000000000000000000000000000000000000323,
  0x10000000000000000000000000000000000000000000000000000000000000000000000000000000000000000000000000000000000000000000000000000000324,
  0x1000000000000000000000000000000000000000000000000000000000000000000000000000000000000000000000000000000000000000000000000000000000000000325,
  0x100000000000000000000000000000000000000000000000000000000000000000000000000000000000000000000000000000000000000000000000000000000000000000000000326,
  0x10000000000000000000000000000000000000000000000000000000000000000000000000000000000000000000000000000000000000000000000000000000000000000000000000000000327,
  0x1000000000000000000000000000000000000000000000000000000000000000000000000000000000000000000000000000000000000000000000000000000000000000000000000000000000000000328,
  0x100000000000000000000000000000000000000000000000000000000000000000000000000000000000000000000000000000000000000000000000000000000000000000000000000000000000000000000000329,
  0x1000000000000000000000000000000000000000000000000000000000000000000000000000000000000000000000000000000000000000000000000000000000000000000000000000000000000000000000000000000032a,
  0x100000000000000000000000000000000000000000000000000000000000000000000000000000000000000000000000000000000000000000000000000000000000000000000000000000000000000000000000000000000000000032b,
  0x10000000000000000000000000000000000000000000000000000000000000000000000000000000000000000000000000000000000000000000000000000000000000000000000000000000000000000000000000000000000000000000000032c,
  0x1000000000000000000000000000000000000000000000000000000000000000000000000000000000000000000000000000000000000000000000000000000000000000000000000000000000000000000000000000000000000000000000000000000032d,
  0x100000000000000000000000000000000000000000000000000000000000000000000000000000000000000000000000000000000000000000000000000000000000000000000000000000000000000000000000000000000000000000000000000000000000000032e,
  0x10000000000000000000000000000000000000000000000000000000000000000000000000000000000000000000000000000000000000000000000000000000000000000000000000000000000000000000000000000000000000000000000000000000000000000000000032f,
  0x10000000000000000000000000000000000000000000000000000000000000000000000000000000000000000000000000000000000000000000000000000000000000000000000000000000000000000000000000000000000000000000000000000000000000000000000000000000330,
  0x100000000000000000000000000000000000000000000000000000000000000000000000000000000000000000000000000000000000000000000000000000000000000000000000000000000000000000000000000000000000000000000000000000000000000000000000332,
  0x100000000000000000000000000000000000000000000000000000000000000000000000000000000000000000000000333,
  0x100000000000000000000000000000000000000000000000000000000000000000000000000000000000000000000050334,
  0x100000000000000000000000000000000000000000000000000000000000000000000000000000000000000000000000334,
  0x10000000000000000000000000000000000000000000000000000000000000000000000000000000000000000000000000000000335,
  0x1000000000000000000000000000000000000000000000000000000000000000000000000000000000000000000000000000000000000000336,
  0x100000000000000000000000000000000000000000000000000000000000000000000000000000000000000000000000000000000000000000000000337,
  0x10000000000000000000000000000000000000000000000000000000000000000000000000000000000000000000000000000000000000000000000000000000338,
  0x1000000000000000000000000000000000000000000000000000000000000000000000000000000000000000000000000000000000000000000000000000000000000000339,
  0x10000000000000000000000000000000000000000000000000000000000000000000000000000000000000000000000000000000000000000000000000000000000000000000000033a,
  0x1000000000000000000000000000000000000000000000000000000000000000000000000000000000000000000000000000000000000000000000000000000000000000000000000000000033b,
  0x100000000000000000000000000000000000000000000000000000000000000000000000000000000000000000000000000000000000000000000000000000000000000000000000000000000000000033c,
  0x10000000000000000000000000000000000000000000000000000000000000000000000000000000000000000000000000000000000000000000000000000000000000000000000000000000000000000000000033d,
  0x1000000000000000000000000000000000000000000000000000000000000000000000000000000000000000000000000000000000000000000000000000000000000000000000000000000000000000000000000000000033e,
  0x100000000000000000000000000000000000000000000000000000000000000000000000000000000000000000000000000000000000000000000000000000000000000000000000000000000000000000000000000000000000000033f,
  0x100000000000000000000000000000000000000000000000000000000000000000000000000000000000000000000000000000000000000000000000000000000000000000000000000000000000000000000000000000000000000000000000340,
  0x10000000000000000000000000000000000000000000000000000000000000000000000000000000000000000000000000000000000000000000000000000000000000000000000000000000000000000000000000000000000000000000000000000000341,
  0x1000000000000000000000000000000000000000000000000000000000000000000000000000000000000000000000000000000000000000000000000000000000000000000000000000000000000000000000000000000000000000000000000000000000000000342,
  0x100000000000000000000000000000000000000000000000000000000000000000000000000000000000000000000000000000000000000000000000000000000000000000000000000000000000000000000000000000000000000000000000000000000000000000000000343,
  0x10000000000000000000000000000000000000000000000000000000000000000000000000000000000000000000000000000000000000000000000000000000000000000000000000000000000000000000000000000000000000000000000000000000000000000000000000000000344,
  0x1000000000000000000000000000000000000000000000000000000000000000000000000000000000000000000000000000000000000000000000000000000000000000000000000000000000000000000000000000000000000000000000000000000000000000000000000000000000000000345,
  0x10000000000000000000000000000000000000000000000000000000000000000000000000000000000000000000000000000000000000000000000000000000000000000000000000000000000000000000000000000000000000000000000000000000000000000000000000000000346,
  0x100000000000000000000000000000000000000000000000000000000000000000000000000000000000000000000000000000000000000000000000000000000000000000000000000000000000000000000000000000000000000000000000000000000000000000000000347,
  0x1000000000000000000000000000000000000000000000000000000000000000000000000000000000000000000000000000000000000000000000000000000000000000000000000000000000000000000000000000000000000000000000000000000000000000348,
  0x10000000000000000000000000000000000000000000000000000000000000000000000000000000000000000000000000000000000000000000000000000000000000000000000000000000000000000000000000000000000000000000000000000000349,
  0x10000000000000000000000000000000000000000000000000000000000000000000000000000000000000000000000000000000000000000000000000000000000000000000000000000000000000000000000000000000000000000000000034a,
  0x100000000000000000000000000000000000000000000000000000000000000000000000000000000000000000000000000000000000000000000000000000000000000000000000000000000000000000000000000000000000000034b,
  0x1000000000000000000000000000000000000000000000000000000000000000000000000000000000000000000000000000000000000000000000000000000000000000000000000000000000000000000000000000000034c,
  0x10000000000000000000000000000000000000000000000000000000000000000000000000000000000000000000000000000000000000000000000000000000000000000000000000000000000000000000000034d,
  0x100000000000000000000000000000000000000000000000000000000000000000000000000000000000000000000000000000000000000000000000000000000000000000000000000000000000000034e,
  0x1000000000000000000000000000000000000000000000000000000000000000000000000000000000000000000000000000000000000000000000000000000000000000000000000000000034f,
  0x100000000000000000000000000000000000000000000000000000000000000000000000000000000000000000000000000000000000000000000000000000000000000000000000350,
  0x1000000000000000000000000000000000000000000000000000000000000000000000000000000000000000000000000000000000000000000000000000000000000000351,
  0x10000000000000000000000000000000000000000000000000000000000000000000000000000000000000000000000000000000000000000000000000000000352,
  0x100000000000000000000000000000000000000000000000000000000000000000000000000000000000000000000000000000000000000000000000353,
  0x1000000000000000000000000000000000000000000000000000000000000000000000000000000000000000000000000000000000000000354,
  0x10000000000000000000000000000000000000000000000000000000000000000000000000000000000000000000000000000000355,
  0x1000000000000000000000000000000000000000000000000000000000000000000000000000000000000000000000000000000000000000356,
  0x100000000000000000000000000000000000000000000000000000000000000000000000000000000000000000000000000000000000000000000000357,
  0x10000000000000000000000000000000000000000000000000000000000000000000000000000000000000000000000000000000000000000000000000000000358,
  0x1000000000000000000000000000000000000000000000000000000000000000000000000000000000000000000000000000000000000000000000000000000000000000359,
  0x10000000000000000000000000000000000000000000000000000000000000000000000000000000000000000000000000000000000000000000000000000000000000000000000035a,
  0x1000000000000000000000000000000000000000000000000000000000000000000000000000000000000000000000000000000000000000000000000000000000000000000000000000000035b,
  0x100000000000000000000000000000000000000000000000000000000000000000000000000000000000000000000000000000000000000000000000000000000000000000000000000000000000000035c,
  0x10000000000000000000000000000000000000000000000000000000000000000000000000000000000000000000000000000000000000000000000000000000000000000000000000000000000000000000000035d,
  0x1000000000000000000000000000000000000000000000000000000000000000000000000000000000000000000000000000000000000000000000000000000000000000000000000000000000000000000000000000000035e,
  0x100000000000000000000000000000000000000000000000000000000000000000000000000000000000000000000000000000000000000000000000000000000000000000000000000000000000000000000000000000000000000035f,
  0x100000000000000000000000000000000000000000000000000000000000000000000000000000000000000000000000000000000000000000000000000000000000000000000000000000000000000000000000000000000000000000000000360,
  0x10000000000000000000000000000000000000000000000000000000000000000000000000000000000000000000000000000000000000000000000000000000000000000000000000000000000000000000000000000000000000000000000000000000361,
  0x1000000000000000000000000000000000000000000000000000000000000000000000000000000000000000000000000000000000000000000000000000000000000000000000000000000000000000000000000000000000000000000000000000000000000000362,
  0x100000000000000000000000000000000000000000000000000000000000000000000000000000000000000000000000000000000000000000000000000000000000000000000000000000000000000000000000000000000000000000000000000000000000000000000000363,
  0x10000000000000000000000000000000000000000000000000000000000000000000000000000000000000000000000000000000000000000000000000000000000000000000000000000000000000000000000000000000000000000000000000000000000000000000000000000000364,
  0x1000000000000000000000000000000000000000000000000000000000000000000000000000000000000000000000000000000000000000000000000000000000000000000000000000000000000000000000000000000000000000000000000000000000000000000000000000000000000000365,
  0x10000000000000000000000000000000000000000000000000000000000000000000000000000000000000000000000000000000366,
  0x1000000000000000000000000000000000000000000000000000000000000000000000000000000000000000000000000000000000000000367,
  0x100000000000000000000000000000000000000000000000000000000000000000000000000000000000000000000000000000000000000000000000368,
  0x10000000000000000000000000000000000000000000000000000000000000000000000000000000000000000000000000000000000000000000000000000000369,
  0x100000000000000000000000000000000000000000000000000000000000000000000000000000000000000000000000000000000000000000000000000000000000000036a,
  0x10000000000000000000000000000000000000000000000000000000000000000000000000000000000000000000000000000000000000000000000000000000000000000000000036b,
  0x1000000000000000000000000000000000000000000000000000000000000000000000000000000000000000000000000000000000000000000000000000000000000000000000000000000036c,
  0x100000000000000000000000000000000000000000000000000000000000000000000000000000000000000000000000000000000000000000000000000000000000000000000000000000000000000036d,
  0x10000000000000000000000000000000000000000000000000000000000000000000000000000000000000000000000000000000000000000000000000000000000000000000000000000000000000000000000036e,
  0x1000000000000000000000000000000000000000000000000000000000000000000000000000000000000000000000000000000000000000000000000000000000000000000000000000000000000000000000000000000036f,
  0x1000000000000000000000000000000000000000000000000000000000000000000000000000000000000000000000000000000000000000000000000000000000000000000000000000000000000000000000000000000000000000370,
  0x100000000000000000000000000000000000000000000000000000000000000000000000000000000000000000000000000000000000000000000000000000000000000000000000000000000000000000000000000000000000000000000000371,
  0x10000000000000000000000000000000000000000000000000000000000000000000000000000000000000000000000000000000000000000000000000000000000000000000000000000000000000000000000000000000000000000000000000000000372,
  0x1000000000000000000000000000000000000000000000000000000000000000000000000000000000000000000000000000000000000000000000000000000000000000000000000000000000000000000000000000000000000000000000000000000000000000373,
  0x100000000000000000000000000000000000000000000000000000000000000000000000000000000000000000000000000000000000000000000000000000000000000000000000000000000000000000000000000000000000000000000000000000000000000000000000374,
  0x10000000000000000000000000000000000000000000000000000000000000000000000000000000000000000000000000000000000000000000000000000000000000000000000000000000000000000000000000000000000000000000000000000000000000000000000000000000375,
  0x1000000000000000000000000000000000000000000000000000000000000000000000000000000000000000000000000000000000000000000000000000000000000000000000000000000000000000000000000000000000000000000000000000000000000000000000000000000000000000376,
  0x10000000000000000000000000000000000000000000000000000000000000000000000000000000000000000000000000000000000000000000000000000000000000000000000000000000000000000000000000000000000000000000000000000000000000000000000000000000378,
  0x10000000000000000000000000000000000000000000000000000000000000000000000000000000000000000000000000000000379,
  0x1000000000000000000000000000000000000000000000000000000000000000000000000000000000000000000000000000005037a,
  0x1000000000000000000000000000000000000000000000000000000000000000000000000000000000000000000000000000000037a,
  0x100000000000000000000000000000000000000000000000000000000000000000000000000000000000000000000000000000000000000037b,
  0x10000000000000000000000000000000000000000000000000000000000000000000000000000000000000000000000000000000000000000000000037c,
  0x1000000000000000000000000000000000000000000000000000000000000000000000000000000000000000000000000000000000000000000000000000000037d,
  0x100000000000000000000000000000000000000000000000000000000000000000000000000000000000000000000000000000000000000000000000000000000000000037e,
  0x10000000000000000000000000000000000000000000000000000000000000000000000000000000000000000000000000000000000000000000000000000000000000000000000037f,
  0x10000000000000000000000000000000000000000000000000000000000000000000000000000000000000000000000000000000000000000000000000000000000000000000000000000000380,
  0x1000000000000000000000000000000000000000000000000000000000000000000000000000000000000000000000000000000000000000000000000000000000000000000000000000000000000000381,
  0x100000000000000000000000000000000000000000000000000000000000000000000000000000000000000000000000000000000000000000000000000000000000000000000000000000000000000000000000382,
  0x10000000000000000000000000000000000000000000000000000000000000000000000000000000000000000000000000000000000000000000000000000000000000000000000000000000000000000000000000000000383,
  0x1000000000000000000000000000000000000000000000000000000000000000000000000000000000000000000000000000000000000000000000000000000000000000000000000000000000000000000000000000000000000000384,
  0x100000000000000000000000000000000000000000000000000000000000000000000000000000000000000000000000000000000000000000000000000000000000000000000000000000000000000000000000000000000000000000000000385,
  0x10000000000000000000000000000000000000000000000000000000000000000000000000000000000000000000000000000000000000000000000000000000000000000000000000000000000000000000000000000000000000000000000000000000386,
  0x1000000000000000000000000000000000000000000000000000000000000000000000000000000000000000000000000000000000000000000000000000000000000000000000000000000000000000000000000000000000000000000000000000000000000000387,
  0x100000000000000000000000000000000000000000000000000000000000000000000000000000000000000000000000000000000000000000000000000000000000000000000000000000000000000000000000000000000000000000000000000000000000000000000000388,
  0x10000000000000000000000000000000000000000000000000000000000000000000000000000000000000000000000000000000000000000000000000000000000000000000000000000000000000000000000000000000000000000000000000000000000000000000000000000000389,
  0x100000000000000000000000000000000000000000000000000000000000000000000000000000000000000000000000000000000000000000000000000000000000000000000000000000000000000000000000000000000000000000000000000000000000000000000000000000000000000038a,
  0x10000000000000000000000000000000000000000000000000000000000000000000000000000000000000000000000000000000000000000000000000000000000000000000000000000000000000000000000000000000000000000000000000000000000000000000000000000000000000000000000038b,
  0x100000000000000000000000000000000000000000000000000000000000000000000000000000000000000000000000000000000000000000000000000000000000000000000000000000000000000000000000000000000000000000000000000000000000000000000000000000000000000038c,
  0x1000000000000000000000000000000000000000000000000000000000000000000000000000000000000000000000000000000000000000000000000000000000000000000000000000000000000000000000000000000000000000000000000000000000000000000000000000000038d,
  0x10000000000000000000000000000000000000000000000000000000000000000000000000000000000000000000000000000000000000000000000000000000000000000000000000000000000000000000000000000000000000000000000000000000000000000000000038e,
  0x100000000000000000000000000000000000000000000000000000000000000000000000000000000000000000000000000000000000000000000000000000000000000000000000000000000000000000000000000000000000000000000000000000000000000038f,
  0x10000000000000000000000000000000000000000000000000000000000000000000000000000000000000000000000000000000000000000000000000000000000000000000000000000000000000000000000000000000000000000000000000000000390,
  0x100000000000000000000000000000000000000000000000000000000000000000000000000000000000000000000000000000000000000000000000000000000000000000000000000000000000000000000000000000000000000000000000391,
  0x1000000000000000000000000000000000000000000000000000000000000000000000000000000000000000000000000000000000000000000000000000000000000000000000000000000000000000000000000000000000000000392,
  0x10000000000000000000000000000000000000000000000000000000000000000000000000000000000000000000000000000000000000000000000000000000000000000000000000000000000000000000000000000000393,
  0x100000000000000000000000000000000000000000000000000000000000000000000000000000000000000000000000000000000000000000000000000000000000000000000000000000000000000000000000394,
  0x1000000000000000000000000000000000000000000000000000000000000000000000000000000000000000000000000000000000000000000000000000000000000000000000000000000000000000395,
  0x10000000000000000000000000000000000000000000000000000000000000000000000000000000000000000000000000000000000000000000000000000000000000000000000000000000396,
  0x100000000000000000000000000000000000000000000000000000000000000000000000000000000000000000000000000000000000000000000000000000000000000000000000397,
  0x1000000000000000000000000000000000000000000000000000000000000000000000000000000000000000000000000000000000000000000000000000000000000000398,
  0x10000000000000000000000000000000000000000000000000000000000000000000000000000000000000000000000000000000000000000000000000000000399,
  0x10000000000000000000000000000000000000000000000000000000000000000000000000000000000000000000000000000000000000000000000039a,
  0x100000000000000000000000000000000000000000000000000000000000000000000000000000000000000000000000000000000000000039b,
  0x10000000000000000000000000000000000000000000000000000000000000000000000000000000000000000000000000000000000000000000000039c,
  0x1000000000000000000000000000000000000000000000000000000000000000000000000000000000000000000000000000000000000000000000000000000039d,
  0x100000000000000000000000000000000000000000000000000000000000000000000000000000000000000000000000000000000000000000000000000000000000000039e,
  0x10000000000000000000000000000000000000000000000000000000000000000000000000000000000000000000000000000000000000000000000000000000000000000000000039f,
  0x100000000000000000000000000000000000000000000000000000000000000000000000000000000000000000000000000000000000000000000000000000000000000000000000000000003a0,
  0x10000000000000000000000000000000000000000000000000000000000000000000000000000000000000000000000000000000000000000000000000000000000000000000000000000000000000003a1,
  0x1000000000000000000000000000000000000000000000000000000000000000000000000000000000000000000000000000000000000000000000000000000000000000000000000000000000000000000000003a2,
  0x100000000000000000000000000000000000000000000000000000000000000000000000000000000000000000000000000000000000000000000000000000000000000000000000000000000000000000000000000000003a3,
  0x10000000000000000000000000000000000000000000000000000000000000000000000000000000000000000000000000000000000000000000000000000000000000000000000000000000000000000000000000000000000000003a4,
  0x1000000000000000000000000000000000000000000000000000000000000000000000000000000000000000000000000000000000000000000000000000000000000000000000000000000000000000000000000000000000000000000000003a5,
  0x100000000000000000000000000000000000000000000000000000000000000000000000000000000000000000000000000000000000000000000000000000000000000000000000000000000000000000000000000000000000000000000000000000003a6,
  0x10000000000000000000000000000000000000000000000000000000000000000000000000000000000000000000000000000000000000000000000000000000000000000000000000000000000000000000000000000000000000000000000000000000000000003a7,
  0x1000000000000000000000000000000000000000000000000000000000000000000000000000000000000000000000000000000000000000000000000000000000000000000000000000000000000000000000000000000000000000000000000000000000000000000000003a8,
  0x100000000000000000000000000000000000000000000000000000000000000000000000000000000000000000000000000000000000000000000000000000000000000000000000000000000000000000000000000000000000000000000000000000000000000000000000000000003a9,
  0x10000000000000000000000000000000000000000000000000000000000000000000000000000000000000000000000000000000000000000000000000000000000000000000000000000000000000000000000000000000000000000000000000000000000000000000000000000000000000003aa,
  0x1000000000000000000000000000000000000000000000000000000000000000000000000000000000000000000000000000000000000000000000000000000000000000000000000000000000000000000000000000000000000000000000000000000000000000000000000000000000000000000000003ab,
  0x10000000000000000000000000000000000000000000000000000000000000000000000000000000000000000000000000000000000000003ac,
  0x1000000000000000000000000000000000000000000000000000000000000000000000000000000000000000000000000000000000000000000000003ad,
  0x100000000000000000000000000000000000000000000000000000000000000000000000000000000000000000000000000000000000000000000000000000003ae,
  0x10000000000000000000000000000000000000000000000000000000000000000000000000000000000000000000000000000000000000000000000000000000000000003af,
  0x1000000000000000000000000000000000000000000000000000000000000000000000000000000000000000000000000000000000000000000000000000000000000000000000003b0,
  0x100000000000000000000000000000000000000000000000000000000000000000000000000000000000000000000000000000000000000000000000000000000000000000000000000000003b1,
  0x10000000000000000000000000000000000000000000000000000000000000000000000000000000000000000000000000000000000000000000000000000000000000000000000000000000000000003b2,
  0x1000000000000000000000000000000000000000000000000000000000000000000000000000000000000000000000000000000000000000000000000000000000000000000000000000000000000000000000003b3,
  0x100000000000000000000000000000000000000000000000000000000000000000000000000000000000000000000000000000000000000000000000000000000000000000000000000000000000000000000000000000003b4,
  0x10000000000000000000000000000000000000000000000000000000000000000000000000000000000000000000000000000000000000000000000000000000000000000000000000000000000000000000000000000000000000003b5,
  0x1000000000000000000000000000000000000000000000000000000000000000000000000000000000000000000000000000000000000000000000000000000000000000000000000000000000000000000000000000000000000000000000003b6,
  0x100000000000000000000000000000000000000000000000000000000000000000000000000000000000000000000000000000000000000000000000000000000000000000000000000000000000000000000000000000000000000000000000000000003b7,
  0x10000000000000000000000000000000000000000000000000000000000000000000000000000000000000000000000000000000000000000000000000000000000000000000000000000000000000000000000000000000000000000000000000000000000000003b8,
  0x1000000000000000000000000000000000000000000000000000000000000000000000000000000000000000000000000000000000000000000000000000000000000000000000000000000000000000000000000000000000000000000000000000000000000000000000003b9,
  0x100000000000000000000000000000000000000000000000000000000000000000000000000000000000000000000000000000000000000000000000000000000000000000000000000000000000000000000000000000000000000000000000000000000000000000000000000000003ba,
  0x10000000000000000000000000000000000000000000000000000000000000000000000000000000000000000000000000000000000000000000000000000000000000000000000000000000000000000000000000000000000000000000000000000000000000000000000000000000000000003bb,
  0x1000000000000000000000000000000000000000000000000000000000000000000000000000000000000000000000000000000000000000000000000000000000000000000000000000000000000000000000000000000000000000000000000000000000000000000000000000000000000000000000003bc,
  0x10000000000000000000000000000000000000000000000000000000000000000000000000000000000000000000000000000000000000000000000000000000000000000000000000000000000000000000000000000000000000000000000000000000000000000000000000000000000000003be,
  0x10000000000000000000000000000000000000000000000000000000000000000000000000000000000000000000000000000000000000003bf,
  0x10000000000000000000000000000000000000000000000000000000000000000000000000000000000000000000000000000000000000503c0,
  0x10000000000000000000000000000000000000000000000000000000000000000000000000000000000000000000000000000000000000003c0,
  0x1000000000000000000000000000000000000000000000000000000000000000000000000000000000000000000000000000000000000000000000003c1,
  0x100000000000000000000000000000000000000000000000000000000000000000000000000000000000000000000000000000000000000000000000000000003c2,
  0x10000000000000000000000000000000000000000000000000000000000000000000000000000000000000000000000000000000000000000000000000000000000000003c3,
  0x1000000000000000000000000000000000000000000000000000000000000000000000000000000000000000000000000000000000000000000000000000000000000000000000003c4,
  0x100000000000000000000000000000000000000000000000000000000000000000000000000000000000000000000000000000000000000000000000000000000000000000000000000000003c5,
  0x10000000000000000000000000000000000000000000000000000000000000000000000000000000000000000000000000000000000000000000000000000000000000000000000000000000000000003c6,
  0x1000000000000000000000000000000000000000000000000000000000000000000000000000000000000000000000000000000000000000000000000000000000000000000000000000000000000000000000003c7,
  0x100000000000000000000000000000000000000000000000000000000000000000000000000000000000000000000000000000000000000000000000000000000000000000000000000000000000000000000000000000003c8,
  0x10000000000000000000000000000000000000000000000000000000000000000000000000000000000000000000000000000000000000000000000000000000000000000000000000000000000000000000000000000000000000003c9,
  0x1000000000000000000000000000000000000000000000000000000000000000000000000000000000000000000000000000000000000000000000000000000000000000000000000000000000000000000000000000000000000000000000003ca,
  0x100000000000000000000000000000000000000000000000000000000000000000000000000000000000000000000000000000000000000000000000000000000000000000000000000000000000000000000000000000000000000000000000000000003cb,
  0x10000000000000000000000000000000000000000000000000000000000000000000000000000000000000000000000000000000000000000000000000000000000000000000000000000000000000000000000000000000000000000000000000000000000000003cc,
  0x1000000000000000000000000000000000000000000000000000000000000000000000000000000000000000000000000000000000000000000000000000000000000000000000000000000000000000000000000000000000000000000000000000000000000000000000003cd,
  0x100000000000000000000000000000000000000000000000000000000000000000000000000000000000000000000000000000000000000000000000000000000000000000000000000000000000000000000000000000000000000000000000000000000000000000000000000000003ce,
  0x10000000000000000000000000000000000000000000000000000000000000000000000000000000000000000000000000000000000000000000000000000000000000000000000000000000000000000000000000000000000000000000000000000000000000000000000000000000000000003cf,
  0x1000000000000000000000000000000000000000000000000000000000000000000000000000000000000000000000000000000000000000000000000000000000000000000000000000000000000000000000000000000000000000000000000000000000000000000000000000000000000000000000003d0,
  0x100000000000000000000000000000000000000000000000000000000000000000000000000000000000000000000000000000000000000000000000000000000000000000000000000000000000000000000000000000000000000000000000000000000000000000000000000000000000000000000000000000003d1,
  0x1000000000000000000000000000000000000000000000000000000000000000000000000000000000000000000000000000000000000000000000000000000000000000000000000000000000000000000000000000000000000000000000000000000000000000000000000000000000000000000000003d2,
  0x10000000000000000000000000000000000000000000000000000000000000000000000000000000000000000000000000000000000000000000000000000000000000000000000000000000000000000000000000000000000000000000000000000000000000000000000000000000000000003d3,
  0x100000000000000000000000000000000000000000000000000000000000000000000000000000000000000000000000000000000000000000000000000000000000000000000000000000000000000000000000000000000000000000000000000000000000000000000000000000003d4,
  0x1000000000000000000000000000000000000000000000000000000000000000000000000000000000000000000000000000000000000000000000000000000000000000000000000000000000000000000000000000000000000000000000000000000000000000000000003d5,
  0x10000000000000000000000000000000000000000000000000000000000000000000000000000000000000000000000000000000000000000000000000000000000000000000000000000000000000000000000000000000000000000000000000000000000000003d6,
  0x100000000000000000000000000000000000000000000000000000000000000000000000000000000000000000000000000000000000000000000000000000000000000000000000000000000000000000000000000000000000000000000000000000003d7,
  0x1000000000000000000000000000000000000000000000000000000000000000000000000000000000000000000000000000000000000000000000000000000000000000000000000000000000000000000000000000000000000000000000003d8,
  0x10000000000000000000000000000000000000000000000000000000000000000000000000000000000000000000000000000000000000000000000000000000000000000000000000000000000000000000000000000000000000003d9,
  0x100000000000000000000000000000000000000000000000000000000000000000000000000000000000000000000000000000000000000000000000000000000000000000000000000000000000000000000000000000003da,
  0x1000000000000000000000000000000000000000000000000000000000000000000000000000000000000000000000000000000000000000000000000000000000000000000000000000000000000000000000003db,
  0x10000000000000000000000000000000000000000000000000000000000000000000000000000000000000000000000000000000000000000000000000000000000000000000000000000000000000003dc,
  0x100000000000000000000000000000000000000000000000000000000000000000000000000000000000000000000000000000000000000000000000000000000000000000000000000000003dd,
  0x1000000000000000000000000000000000000000000000000000000000000000000000000000000000000000000000000000000000000000000000000000000000000000000000003de,
  0x10000000000000000000000000000000000000000000000000000000000000000000000000000000000000000000000000000000000000000000000000000000000000003df,
  0x100000000000000000000000000000000000000000000000000000000000000000000000000000000000000000000000000000000000000000000000000000003e0,
  0x1000000000000000000000000000000000000000000000000000000000000000000000000000000000000000000000000000000000000000000000003e1,
  0x100000000000000000000000000000000000000000000000000000000000000000000000000000000000000000000000000000000000000000000000000000003e2,
  0x10000000000000000000000000000000000000000000000000000000000000000000000000000000000000000000000000000000000000000000000000000000000000003e3,
  0x1000000000000000000000000000000000000000000000000000000000000000000000000000000000000000000000000000000000000000000000000000000000000000000000003e4,
  0x100000000000000000000000000000000000000000000000000000000000000000000000000000000000000000000000000000000000000000000000000000000000000000000000000000003e5,
  0x10000000000000000000000000000000000000000000000000000000000000000000000000000000000000000000000000000000000000000000000000000000000000000000000000000000000000003e6,
  0x1000000000000000000000000000000000000000000000000000000000000000000000000000000000000000000000000000000000000000000000000000000000000000000000000000000000000000000000003e7,
  0x100000000000000000000000000000000000000000000000000000000000000000000000000000000000000000000000000000000000000000000000000000000000000000000000000000000000000000000000000000003e8,
  0x10000000000000000000000000000000000000000000000000000000000000000000000000000000000000000000000000000000000000000000000000000000000000000000000000000000000000000000000000000000000000003e9,
  0x1000000000000000000000000000000000000000000000000000000000000000000000000000000000000000000000000000000000000000000000000000000000000000000000000000000000000000000000000000000000000000000000003ea,
  0x100000000000000000000000000000000000000000000000000000000000000000000000000000000000000000000000000000000000000000000000000000000000000000000000000000000000000000000000000000000000000000000000000000003eb,
  0x10000000000000000000000000000000000000000000000000000000000000000000000000000000000000000000000000000000000000000000000000000000000000000000000000000000000000000000000000000000000000000000000000000000000000003ec,
  0x1000000000000000000000000000000000000000000000000000000000000000000000000000000000000000000000000000000000000000000000000000000000000000000000000000000000000000000000000000000000000000000000000000000000000000000000003ed,
  0x100000000000000000000000000000000000000000000000000000000000000000000000000000000000000000000000000000000000000000000000000000000000000000000000000000000000000000000000000000000000000000000000000000000000000000000000000000003ee,
  0x10000000000000000000000000000000000000000000000000000000000000000000000000000000000000000000000000000000000000000000000000000000000000000000000000000000000000000000000000000000000000000000000000000000000000000000000000000000000000003ef,
  0x1000000000000000000000000000000000000000000000000000000000000000000000000000000000000000000000000000000000000000000000000000000000000000000000000000000000000000000000000000000000000000000000000000000000000000000000000000000000000000000000003f0,
  0x100000000000000000000000000000000000000000000000000000000000000000000000000000000000000000000000000000000000000000000000000000000000000000000000000000000000000000000000000000000000000000000000000000000000000000000000000000000000000000000000000000003f1,
  0x1000000000000000000000000000000000000000000000000000000000000000000000000000000000000000000000000000000000000000000000003f2,
  0x100000000000000000000000000000000000000000000000000000000000000000000000000000000000000000000000000000000000000000000000000000003f3,
  0x10000000000000000000000000000000000000000000000000000000000000000000000000000000000000000000000000000000000000000000000000000000000000003f4,
  0x1000000000000000000000000000000000000000000000000000000000000000000000000000000000000000000000000000000000000000000000000000000000000000000000003f5,
  0x100000000000000000000000000000000000000000000000000000000000000000000000000000000000000000000000000000000000000000000000000000000000000000000000000000003f6,
  0x10000000000000000000000000000000000000000000000000000000000000000000000000000000000000000000000000000000000000000000000000000000000000000000000000000000000000003f7,
  0x1000000000000000000000000000000000000000000000000000000000000000000000000000000000000000000000000000000000000000000000000000000000000000000000000000000000000000000000003f8,
  0x100000000000000000000000000000000000000000000000000000000000000000000000000000000000000000000000000000000000000000000000000000000000000000000000000000000000000000000000000000003f9,
  0x10000000000000000000000000000000000000000000000000000000000000000000000000000000000000000000000000000000000000000000000000000000000000000000000000000000000000000000000000000000000000003fa,
  0x1000000000000000000000000000000000000000000000000000000000000000000000000000000000000000000000000000000000000000000000000000000000000000000000000000000000000000000000000000000000000000000000003fb,
  0x100000000000000000000000000000000000000000000000000000000000000000000000000000000000000000000000000000000000000000000000000000000000000000000000000000000000000000000000000000000000000000000000000000003fc,
  0x10000000000000000000000000000000000000000000000000000000000000000000000000000000000000000000000000000000000000000000000000000000000000000000000000000000000000000000000000000000000000000000000000000000000000003fd,
  0x1000000000000000000000000000000000000000000000000000000000000000000000000000000000000000000000000000000000000000000000000000000000000000000000000000000000000000000000000000000000000000000000000000000000000000000000003fe,
  0x100000000000000000000000000000000000000000000000000000000000000000000000000000000000000000000000000000000000000000000000000000000000000000000000000000000000000000000000000000000000000000000000000000000000000000000000000000003ff,
  0x1000000000000000000000000000000000000000000000000000000000000000000000000000000000000000000000000000000000000000000000000000000000000000000000000000000000000000000000000000000000000000000000000000000000000000000000000000000000000000400,
  0x100000000000000000000000000000000000000000000000000000000000000000000000000000000000000000000000000000000000000000000000000000000000000000000000000000000000000000000000000000000000000000000000000000000000000000000000000000000000000000000000401,
  0x10000000000000000000000000000000000000000000000000000000000000000000000000000000000000000000000000000000000000000000000000000000000000000000000000000000000000000000000000000000000000000000000000000000000000000000000000000000000000000000000000000000402,
  0x100000000000000000000000000000000000000000000000000000000000000000000000000000000000000000000000000000000000000000000000000000000000000000000000000000000000000000000000000000000000000000000000000000000000000000000000000000000000000000000000404,
  0x100000000000000000000000000000000000000000000000000000000000000000000000000000000000000000000000000000000000000000000000405,
  0x100000000000000000000000000000000000000000000000000000000000000000000000000000000000000000000000000000000000000000000050406,
  0x100000000000000000000000000000000000000000000000000000000000000000000000000000000000000000000000000000000000000000000000406,
  0x10000000000000000000000000000000000000000000000000000000000000000000000000000000000000000000000000000000000000000000000000000000407,
  0x1000000000000000000000000000000000000000000000000000000000000000000000000000000000000000000000000000000000000000000000000000000000000000408,
  0x100000000000000000000000000000000000000000000000000000000000000000000000000000000000000000000000000000000000000000000000000000000000000000000000409,
  0x1000000000000000000000000000000000000000000000000000000000000000000000000000000000000000000000000000000000000000000000000000000000000000000000000000000040a,
  0x100000000000000000000000000000000000000000000000000000000000000000000000000000000000000000000000000000000000000000000000000000000000000000000000000000000000000040b,
  0x10000000000000000000000000000000000000000000000000000000000000000000000000000000000000000000000000000000000000000000000000000000000000000000000000000000000000000000000040c,
  0x1000000000000000000000000000000000000000000000000000000000000000000000000000000000000000000000000000000000000000000000000000000000000000000000000000000000000000000000000000000040d,
  0x100000000000000000000000000000000000000000000000000000000000000000000000000000000000000000000000000000000000000000000000000000000000000000000000000000000000000000000000000000000000000040e,
  0x10000000000000000000000000000000000000000000000000000000000000000000000000000000000000000000000000000000000000000000000000000000000000000000000000000000000000000000000000000000000000000000000040f,
  0x10000000000000000000000000000000000000000000000000000000000000000000000000000000000000000000000000000000000000000000000000000000000000000000000000000000000000000000000000000000000000000000000000000000410,
  0x1000000000000000000000000000000000000000000000000000000000000000000000000000000000000000000000000000000000000000000000000000000000000000000000000000000000000000000000000000000000000000000000000000000000000000411,
  0x100000000000000000000000000000000000000000000000000000000000000000000000000000000000000000000000000000000000000000000000000000000000000000000000000000000000000000000000000000000000000000000000000000000000000000000000412,
  0x10000000000000000000000000000000000000000000000000000000000000000000000000000000000000000000000000000000000000000000000000000000000000000000000000000000000000000000000000000000000000000000000000000000000000000000000000000000413,
  0x1000000000000000000000000000000000000000000000000000000000000000000000000000000000000000000000000000000000000000000000000000000000000000000000000000000000000000000000000000000000000000000000000000000000000000000000000000000000000000414,
  0x100000000000000000000000000000000000000000000000000000000000000000000000000000000000000000000000000000000000000000000000000000000000000000000000000000000000000000000000000000000000000000000000000000000000000000000000000000000000000000000000415,
  0x10000000000000000000000000000000000000000000000000000000000000000000000000000000000000000000000000000000000000000000000000000000000000000000000000000000000000000000000000000000000000000000000000000000000000000000000000000000000000000000000000000000416,
  0x1000000000000000000000000000000000000000000000000000000000000000000000000000000000000000000000000000000000000000000000000000000000000000000000000000000000000000000000000000000000000000000000000000000000000000000000000000000000000000000000000000000000000000417,
  0x10000000000000000000000000000000000000000000000000000000000000000000000000000000000000000000000000000000000000000000000000000000000000000000000000000000000000000000000000000000000000000000000000000000000000000000000000000000000000000000000000000000418,
  0x100000000000000000000000000000000000000000000000000000000000000000000000000000000000000000000000000000000000000000000000000000000000000000000000000000000000000000000000000000000000000000000000000000000000000000000000000000000000000000000000419,
  0x100000000000000000000000000000000000000000000000000000000000000000000000000000000000000000000000000000000000000000000000000000000000000000000000000000000000000000000000000000000000000000000000000000000000000000000000000000000000000041a,
  0x1000000000000000000000000000000000000000000000000000000000000000000000000000000000000000000000000000000000000000000000000000000000000000000000000000000000000000000000000000000000000000000000000000000000000000000000000000000041b,
  0x10000000000000000000000000000000000000000000000000000000000000000000000000000000000000000000000000000000000000000000000000000000000000000000000000000000000000000000000000000000000000000000000000000000000000000000000041c,
  0x100000000000000000000000000000000000000000000000000000000000000000000000000000000000000000000000000000000000000000000000000000000000000000000000000000000000000000000000000000000000000000000000000000000000000041d,
  0x1000000000000000000000000000000000000000000000000000000000000000000000000000000000000000000000000000000000000000000000000000000000000000000000000000000000000000000000000000000000000000000000000000000041e,
  0x10000000000000000000000000000000000000000000000000000000000000000000000000000000000000000000000000000000000000000000000000000000000000000000000000000000000000000000000000000000000000000000000041f,
  0x1000000000000000000000000000000000000000000000000000000000000000000000000000000000000000000000000000000000000000000000000000000000000000000000000000000000000000000000000000000000000000420,
  0x10000000000000000000000000000000000000000000000000000000000000000000000000000000000000000000000000000000000000000000000000000000000000000000000000000000000000000000000000000000421,
  0x100000000000000000000000000000000000000000000000000000000000000000000000000000000000000000000000000000000000000000000000000000000000000000000000000000000000000000000000422,
  0x1000000000000000000000000000000000000000000000000000000000000000000000000000000000000000000000000000000000000000000000000000000000000000000000000000000000000000423,
  0x10000000000000000000000000000000000000000000000000000000000000000000000000000000000000000000000000000000000000000000000000000000000000000000000000000000424,
  0x100000000000000000000000000000000000000000000000000000000000000000000000000000000000000000000000000000000000000000000000000000000000000000000000425,
  0x1000000000000000000000000000000000000000000000000000000000000000000000000000000000000000000000000000000000000000000000000000000000000000426,
  0x10000000000000000000000000000000000000000000000000000000000000000000000000000000000000000000000000000000000000000000000000000000427,
  0x1000000000000000000000000000000000000000000000000000000000000000000000000000000000000000000000000000000000000000000000000000000000000000428,
  0x100000000000000000000000000000000000000000000000000000000000000000000000000000000000000000000000000000000000000000000000000000000000000000000000429,
  0x1000000000000000000000000000000000000000000000000000000000000000000000000000000000000000000000000000000000000000000000000000000000000000000000000000000042a,
  0x100000000000000000000000000000000000000000000000000000000000000000000000000000000000000000000000000000000000000000000000000000000000000000000000000000000000000042b,
  0x10000000000000000000000000000000000000000000000000000000000000000000000000000000000000000000000000000000000000000000000000000000000000000000000000000000000000000000000042c,
  0x1000000000000000000000000000000000000000000000000000000000000000000000000000000000000000000000000000000000000000000000000000000000000000000000000000000000000000000000000000000042d,
  0x100000000000000000000000000000000000000000000000000000000000000000000000000000000000000000000000000000000000000000000000000000000000000000000000000000000000000000000000000000000000000042e,
  0x10000000000000000000000000000000000000000000000000000000000000000000000000000000000000000000000000000000000000000000000000000000000000000000000000000000000000000000000000000000000000000000000042f,
  0x10000000000000000000000000000000000000000000000000000000000000000000000000000000000000000000000000000000000000000000000000000000000000000000000000000000000000000000000000000000000000000000000000000000430,
  0x1000000000000000000000000000000000000000000000000000000000000000000000000000000000000000000000000000000000000000000000000000000000000000000000000000000000000000000000000000000000000000000000000000000000000000431,
  0x100000000000000000000000000000000000000000000000000000000000000000000000000000000000000000000000000000000000000000000000000000000000000000000000000000000000000000000000000000000000000000000000000000000000000000000000432,
  0x10000000000000000000000000000000000000000000000000000000000000000000000000000000000000000000000000000000000000000000000000000000000000000000000000000000000000000000000000000000000000000000000000000000000000000000000000000000433,
  0x1000000000000000000000000000000000000000000000000000000000000000000000000000000000000000000000000000000000000000000000000000000000000000000000000000000000000000000000000000000000000000000000000000000000000000000000000000000000000000434,
  0x100000000000000000000000000000000000000000000000000000000000000000000000000000000000000000000000000000000000000000000000000000000000000000000000000000000000000000000000000000000000000000000000000000000000000000000000000000000000000000000000435,
  0x10000000000000000000000000000000000000000000000000000000000000000000000000000000000000000000000000000000000000000000000000000000000000000000000000000000000000000000000000000000000000000000000000000000000000000000000000000000000000000000000000000000436,
  0x1000000000000000000000000000000000000000000000000000000000000000000000000000000000000000000000000000000000000000000000000000000000000000000000000000000000000000000000000000000000000000000000000000000000000000000000000000000000000000000000000000000000000000437,
  0x10000000000000000000000000000000000000000000000000000000000000000000000000000000000000000000000000000000000000000000000000000000438,
  0x1000000000000000000000000000000000000000000000000000000000000000000000000000000000000000000000000000000000000000000000000000000000000000439,
  0x10000000000000000000000000000000000000000000000000000000000000000000000000000000000000000000000000000000000000000000000000000000000000000000000043a,
  0x1000000000000000000000000000000000000000000000000000000000000000000000000000000000000000000000000000000000000000000000000000000000000000000000000000000043b,
  0x100000000000000000000000000000000000000000000000000000000000000000000000000000000000000000000000000000000000000000000000000000000000000000000000000000000000000043c,
  0x10000000000000000000000000000000000000000000000000000000000000000000000000000000000000000000000000000000000000000000000000000000000000000000000000000000000000000000000043d,
  0x1000000000000000000000000000000000000000000000000000000000000000000000000000000000000000000000000000000000000000000000000000000000000000000000000000000000000000000000000000000043e,
  0x100000000000000000000000000000000000000000000000000000000000000000000000000000000000000000000000000000000000000000000000000000000000000000000000000000000000000000000000000000000000000043f,
  0x100000000000000000000000000000000000000000000000000000000000000000000000000000000000000000000000000000000000000000000000000000000000000000000000000000000000000000000000000000000000000000000000440,
  0x10000000000000000000000000000000000000000000000000000000000000000000000000000000000000000000000000000000000000000000000000000000000000000000000000000000000000000000000000000000000000000000000000000000441,
  0x1000000000000000000000000000000000000000000000000000000000000000000000000000000000000000000000000000000000000000000000000000000000000000000000000000000000000000000000000000000000000000000000000000000000000000442,
  0x100000000000000000000000000000000000000000000000000000000000000000000000000000000000000000000000000000000000000000000000000000000000000000000000000000000000000000000000000000000000000000000000000000000000000000000000443,
  0x10000000000000000000000000000000000000000000000000000000000000000000000000000000000000000000000000000000000000000000000000000000000000000000000000000000000000000000000000000000000000000000000000000000000000000000000000000000444,
  0x1000000000000000000000000000000000000000000000000000000000000000000000000000000000000000000000000000000000000000000000000000000000000000000000000000000000000000000000000000000000000000000000000000000000000000000000000000000000000000445,
  0x100000000000000000000000000000000000000000000000000000000000000000000000000000000000000000000000000000000000000000000000000000000000000000000000000000000000000000000000000000000000000000000000000000000000000000000000000000000000000000000000446,
  0x10000000000000000000000000000000000000000000000000000000000000000000000000000000000000000000000000000000000000000000000000000000000000000000000000000000000000000000000000000000000000000000000000000000000000000000000000000000000000000000000000000000447,
  0x1000000000000000000000000000000000000000000000000000000000000000000000000000000000000000000000000000000000000000000000000000000000000000000000000000000000000000000000000000000000000000000000000000000000000000000000000000000000000000000000000000000000000000448,
  0x1000000000000000000000000000000000000000000000000000000000000000000000000000000000000000000000000000000000000000000000000000000000000000000000000000000000000000000000000000000000000000000000000000000000000000000000000000000000000000000000000000000044a,
  0x1000000000000000000000000000000000000000000000000000000000000000000000000000000000000000000000000000000000000000000000000000000044b,
  0x1000000000000000000000000000000000000000000000000000000000000000000000000000000000000000000000000000000000000000000000000000005044c,
  0x1000000000000000000000000000000000000000000000000000000000000000000000000000000000000000000000000000000000000000000000000000000044c,
  0x100000000000000000000000000000000000000000000000000000000000000000000000000000000000000000000000000000000000000000000000000000000000000044d,
  0x10000000000000000000000000000000000000000000000000000000000000000000000000000000000000000000000000000000000000000000000000000000000000000000000044e,
  0x1000000000000000000000000000000000000000000000000000000000000000000000000000000000000000000000000000000000000000000000000000000000000000000000000000000044f,
  0x1000000000000000000000000000000000000000000000000000000000000000000000000000000000000000000000000000000000000000000000000000000000000000000000000000000000000000450,
  0x100000000000000000000000000000000000000000000000000000000000000000000000000000000000000000000000000000000000000000000000000000000000000000000000000000000000000000000000451,
  0x10000000000000000000000000000000000000000000000000000000000000000000000000000000000000000000000000000000000000000000000000000000000000000000000000000000000000000000000000000000452,
  0x1000000000000000000000000000000000000000000000000000000000000000000000000000000000000000000000000000000000000000000000000000000000000000000000000000000000000000000000000000000000000000453,
  0x100000000000000000000000000000000000000000000000000000000000000000000000000000000000000000000000000000000000000000000000000000000000000000000000000000000000000000000000000000000000000000000000454,
  0x10000000000000000000000000000000000000000000000000000000000000000000000000000000000000000000000000000000000000000000000000000000000000000000000000000000000000000000000000000000000000000000000000000000455,
  0x1000000000000000000000000000000000000000000000000000000000000000000000000000000000000000000000000000000000000000000000000000000000000000000000000000000000000000000000000000000000000000000000000000000000000000456,
  0x100000000000000000000000000000000000000000000000000000000000000000000000000000000000000000000000000000000000000000000000000000000000000000000000000000000000000000000000000000000000000000000000000000000000000000000000457,
  0x10000000000000000000000000000000000000000000000000000000000000000000000000000000000000000000000000000000000000000000000000000000000000000000000000000000000000000000000000000000000000000000000000000000000000000000000000000000458,
  0x1000000000000000000000000000000000000000000000000000000000000000000000000000000000000000000000000000000000000000000000000000000000000000000000000000000000000000000000000000000000000000000000000000000000000000000000000000000000000000459,
  0x10000000000000000000000000000000000000000000000000000000000000000000000000000000000000000000000000000000000000000000000000000000000000000000000000000000000000000000000000000000000000000000000000000000000000000000000000000000000000000000000045a,
  0x1000000000000000000000000000000000000000000000000000000000000000000000000000000000000000000000000000000000000000000000000000000000000000000000000000000000000000000000000000000000000000000000000000000000000000000000000000000000000000000000000000000045b,
  0x100000000000000000000000000000000000000000000000000000000000000000000000000000000000000000000000000000000000000000000000000000000000000000000000000000000000000000000000000000000000000000000000000000000000000000000000000000000000000000000000000000000000000045c,
  0x10000000000000000000000000000000000000000000000000000000000000000000000000000000000000000000000000000000000000000000000000000000000000000000000000000000000000000000000000000000000000000000000000000000000000000000000000000000000000000000000000000000000000000000000045d]
  cond := ⟨[.x 2157, .x 2159, .x 2161, .x 2163, .x 2165, .x 2167, .x 2169, .x 2171, .x 2173, .x 2175, .x 2177, .x 2179, .x 2181, .x 2183, .x 2185, .x 2187, .x 2189], [0x88e, 0x890, 0x892, 0x894, 0x896, 0x898, 0x89a, 0x89c, 0x89e, 0x8a0, 0x8a2, 0x8a4, 0x8a6, 0x8a8, 0x8aa, 0x8ac, 0x8ae], 2223,
    [0x1000000045e, 0x100000000000000045f, 0x100000000000000000000000460, 0x10000000000000000000000000000000461,
  0x1000000000000000000000000000000000000000462, 0x100000000000000000000000000000000000000000000000463,
  0x10000000000000000000000000000000000000000000000000000000464, 0x1000000000000000000000000000000000000000000000000000000000000000465,
  0x100000000000000000000000000000000000000000000000000000000000000000000000466,
  0x10000000000000000000000000000000000000000000000000000000000000000000000000000000467,
  0x1000000000000000000000000000000000000000000000000000000000000000000000000000000000000000468,
  0x100000000000000000000000000000000000000000000000000000000000000000000000000000000000000000000000469,
  0x1000000000000000000000000000000000000000000000000000000000000000000000000000000000000000000000000000000046a,
  0x100000000000000000000000000000000000000000000000000000000000000000000000000000000000000000000000000000000000000046b,
  0x10000000000000000000000000000000000000000000000000000000000000000000000000000000000000000000000000000000000000000000000046c,
  0x1000000000000000000000000000000000000000000000000000000000000000000000000000000000000000000000000000000000000000000000000000000046d,
  0x100000000000000000000000000000000000000000000000000000000000000000000000000000000000000000000000000000000000000000000000000000000000000046e],
    [0x1000000045e, 0x100000000000000045f, 0x100000000000000000000000460, 0x10000000000000000000000000000000461,
  0x1000000000000000000000000000000000000000462, 0x100000000000000000000000000000000000000000000000463,
  0x10000000000000000000000000000000000000000000000000000000464, 0x1000000000000000000000000000000000000000000000000000000000000000465,
  0x100000000000000000000000000000000000000000000000000000000000000000000000466,
  0x10000000000000000000000000000000000000000000000000000000000000000000000000000000467,
  0x1000000000000000000000000000000000000000000000000000000000000000000000000000000000000000468,
  0x100000000000000000000000000000000000000000000000000000000000000000000000000000000000000000000000469,
  0x1000000000000000000000000000000000000000000000000000000000000000000000000000000000000000000000000000000046a,
  0x100000000000000000000000000000000000000000000000000000000000000000000000000000000000000000000000000000000000000046b,
  0x10000000000000000000000000000000000000000000000000000000000000000000000000000000000000000000000000000000000000000000000046c,
  0x1000000000000000000000000000000000000000000000000000000000000000000000000000000000000000000000000000000000000000000000000000000046d,
  0x1000000046f, 0x1000000000000000470, 0x100000000000000000000000471, 0x10000000000000000000000000000000472,
  0x1000000000000000000000000000000000000000473, 0x100000000000000000000000000000000000000000000000474,
  0x10000000000000000000000000000000000000000000000000000000475, 0x1000000000000000000000000000000000000000000000000000000000000000476,
  0x100000000000000000000000000000000000000000000000000000000000000000000000477,
  0x10000000000000000000000000000000000000000000000000000000000000000000000000000000478,
  0x1000000000000000000000000000000000000000000000000000000000000000000000000000000000000000479,
  0x10000000000000000000000000000000000000000000000000000000000000000000000000000000000000000000000047a,
  0x1000000000000000000000000000000000000000000000000000000000000000000000000000000000000000000000000000000047b,
  0x100000000000000000000000000000000000000000000000000000000000000000000000000000000000000000000000000000000000000047c,
  0x10000000000000000000000000000000000000000000000000000000000000000000000000000000000000000000000000000000000000000000000047d,
  0x1000000000000000000000000000000000000000000000000000000000000000000000000000000000000000000000000000000000000000000000000000000047e],
    [0x1000000046f, 0x1000000000000000470, 0x100000000000000000000000471, 0x10000000000000000000000000000000472,
  0x1000000000000000000000000000000000000000473, 0x100000000000000000000000000000000000000000000000474,
  0x10000000000000000000000000000000000000000000000000000000475, 0x1000000000000000000000000000000000000000000000000000000000000000476,
  0x100000000000000000000000000000000000000000000000000000000000000000000000477,
  0x10000000000000000000000000000000000000000000000000000000000000000000000000000000478,
  0x1000000000000000000000000000000000000000000000000000000000000000000000000000000000000000479,
  0x10000000000000000000000000000000000000000000000000000000000000000000000000000000000000000000000047a,
  0x1000000000000000000000000000000000000000000000000000000000000000000000000000000000000000000000000000000047b,
  0x100000000000000000000000000000000000000000000000000000000000000000000000000000000000000000000000000000000000000047c,
  0x10000000000000000000000000000000000000000000000000000000000000000000000000000000000000000000000000000000000000000000000047d,
  0x1000000000000000000000000000000000000000000000000000000000000000000000000000000000000000000000000000000000000000000000000000000047e]⟩

theorem c2 : redChecks square full [] k2 (prodForm true W (argsA full.length) (argsA full.length)) R 4294967296 R p W W1 full full1 = true := by decide +kernel

def k3 : RedCert where
  zs := []
  zc := []
  qs := []
  main := [0x10000000000, 0x1000000000000000001, 0x100000000000000000000000002, 0x10000000000000000000000000000000003,
  0x1000000000000000000000000000000000000000004, 0x100000000000000000000000000000000000000000000000005,
  0x10000000000000000000000000000000000000000000000000000000006, 0x1000000000000000000000000000000000000000000000000000000000000000007,
  0x100000000000000000000000000000000000000000000000000000000000000000000000008,
  0x10000000000000000000000000000000000000000000000000000000000000000000000000000000009,
  0x100000000000000000000000000000000000000000000000000000000000000000000000000000000000000000a,
  0x10000000000000000000000000000000000000000000000000000000000000000000000000000000000000000000000000b,
  0x1000000000000000000000000000000000000000000000000000000000000000000000000000000000000000000000000000000000c,
  0x100000000000000000000000000000000000000000000000000000000000000000000000000000000000000000000000000000000000000000d,
  0x10000000000000000000000000000000000000000000000000000000000000000000000000000000000000000000000000000000000000000000000000e,
  0x1000000000000000000000000000000000000000000000000000000000000000000000000000000000000000000000000000000000000000000000000000000000f]
  cond := ⟨[.x 1, .x 3, .x 5, .x 7, .x 9, .x 11, .x 13, .x 15, .x 17, .x 19, .x 21, .x 23, .x 25, .x 27, .x 29, .x 31, .x 32], [33, 35, 37, 39, 41, 43, 45, 47, 49, 51, 53, 55, 57, 59, 61, 63, 65], 66,
    [0x10000000010, 0x1000000000000000011, 0x100000000000000000000000012, 0x10000000000000000000000000000000013,
  0x1000000000000000000000000000000000000000014, 0x100000000000000000000000000000000000000000000000015,
  0x10000000000000000000000000000000000000000000000000000000016, 0x1000000000000000000000000000000000000000000000000000000000000000017,
  0x100000000000000000000000000000000000000000000000000000000000000000000000018,
  0x10000000000000000000000000000000000000000000000000000000000000000000000000000000019,
  0x100000000000000000000000000000000000000000000000000000000000000000000000000000000000000001a,
  0x10000000000000000000000000000000000000000000000000000000000000000000000000000000000000000000000001b,
  0x1000000000000000000000000000000000000000000000000000000000000000000000000000000000000000000000000000000001c,
  0x100000000000000000000000000000000000000000000000000000000000000000000000000000000000000000000000000000000000000001d,
  0x10000000000000000000000000000000000000000000000000000000000000000000000000000000000000000000000000000000000000000000000001e,
  0x1000000000000000000000000000000000000000000000000000000000000000000000000000000000000000000000000000000000000000000000000000000001f,
  0x1000000000000000000000000000000000000000000000000000000000000000000000000000000000000000000000000000000000000000000000000000000000000000020],
    [0x10000000010, 0x1000000000000000011, 0x100000000000000000000000012, 0x10000000000000000000000000000000013,
  0x1000000000000000000000000000000000000000014, 0x100000000000000000000000000000000000000000000000015,
  0x10000000000000000000000000000000000000000000000000000000016, 0x1000000000000000000000000000000000000000000000000000000000000000017,
  0x100000000000000000000000000000000000000000000000000000000000000000000000018,
  0x10000000000000000000000000000000000000000000000000000000000000000000000000000000019,
  0x100000000000000000000000000000000000000000000000000000000000000000000000000000000000000001a,
  0x10000000000000000000000000000000000000000000000000000000000000000000000000000000000000000000000001b,
  0x1000000000000000000000000000000000000000000000000000000000000000000000000000000000000000000000000000000001c,
  0x100000000000000000000000000000000000000000000000000000000000000000000000000000000000000000000000000000000000000001d,
  0x10000000000000000000000000000000000000000000000000000000000000000000000000000000000000000000000000000000000000000000000001e,
  0x1000000000000000000000000000000000000000000000000000000000000000000000000000000000000000000000000000000000000000000000000000000001f,
  0x10000000021, 0x1000000000000000022, 0x100000000000000000000000023, 0x10000000000000000000000000000000024,
  0x1000000000000000000000000000000000000000025, 0x100000000000000000000000000000000000000000000000026,
  0x10000000000000000000000000000000000000000000000000000000027, 0x1000000000000000000000000000000000000000000000000000000000000000028,
  0x100000000000000000000000000000000000000000000000000000000000000000000000029,
  0x1000000000000000000000000000000000000000000000000000000000000000000000000000000002a,
  0x100000000000000000000000000000000000000000000000000000000000000000000000000000000000000002b,
  0x10000000000000000000000000000000000000000000000000000000000000000000000000000000000000000000000002c,
  0x1000000000000000000000000000000000000000000000000000000000000000000000000000000000000000000000000000000002d,
  0x100000000000000000000000000000000000000000000000000000000000000000000000000000000000000000000000000000000000000002e,
  0x10000000000000000000000000000000000000000000000000000000000000000000000000000000000000000000000000000000000000000000000002f,
  0x10000000000000000000000000000000000000000000000000000000000000000000000000000000000000000000000000000000000000000000000000000000030],
    [0x10000000021, 0x1000000000000000022, 0x100000000000000000000000023, 0x10000000000000000000000000000000024,
  0x1000000000000000000000000000000000000000025, 0x100000000000000000000000000000000000000000000000026,
  0x10000000000000000000000000000000000000000000000000000000027, 0x1000000000000000000000000000000000000000000000000000000000000000028,
  0x100000000000000000000000000000000000000000000000000000000000000000000000029,
  0x1000000000000000000000000000000000000000000000000000000000000000000000000000000002a,
  0x100000000000000000000000000000000000000000000000000000000000000000000000000000000000000002b,
  0x10000000000000000000000000000000000000000000000000000000000000000000000000000000000000000000000002c,
  0x1000000000000000000000000000000000000000000000000000000000000000000000000000000000000000000000000000000002d,
  0x100000000000000000000000000000000000000000000000000000000000000000000000000000000000000000000000000000000000000002e,
  0x10000000000000000000000000000000000000000000000000000000000000000000000000000000000000000000000000000000000000000000000002f,
  0x10000000000000000000000000000000000000000000000000000000000000000000000000000000000000000000000000000000000000000000000000000000030]⟩

theorem c3 : redChecks add full full k3 (lin true 1 W (argsA full.length) ++ lin true 1 W (argsB full.length)) 1 4294967296 R p W W1 full full1 = true := by decide +kernel

def k4 : RedCert where
  zs := [8, 20, 32, 44, 56, 68, 80, 92, 0x68, 0x74, 0x80, 0x8c, 0x98, 0xa4, 0xca, 0x10e]
  zc := [[0x6f0000000001, 0x10000000003, 0x10000000004],
    [0x6f0000000006, 0x10000000008, 0x1000000000a],
    [0x6f000000000c, 0x1000000000e, 0x10000000010],
    [0x6f0000000012, 0x10000000014, 0x10000000016],
    [0x6f0000000018, 0x1000000001a, 0x1000000001c],
    [0x6f000000001e, 0x10000000020, 0x10000000022],
    [0x6f0000000024, 0x10000000026, 0x10000000028],
    [0x6f000000002a, 0x1000000002c, 0x1000000002e],
    [0x6f0000000030, 0x10000000032, 0x10000000034],
    [0x6f0000000036, 0x10000000038, 0x1000000003a],
    [0x6f000000003c, 0x1000000003e, 0x10000000040],
    [0x6f0000000042, 0x10000000044, 0x10000000046],
    [0x6f0000000048, 0x1000000004a, 0x1000000004c],
    [0x6f000000004e, 0x10000000050, 0x10000000052],
    [0x6f0000000062, 0x10000000064, 0x10000000065],
    [0x6f0000000084, 0x10000000086, 0x10000000087]]
  qs := [2, 12, 24, 36, 48, 60, 72, 84, 96, 0x6c, 0x78, 0x84, 0x90, 0x9c, 0xc4, 0x108]
  main := [0x10000000000,
  0x10000000000000000000000000000000000000000000000000000000000000000000000000000000000000000000000000000000000000000000000000000000002,
  0x10000000003, 0x10000050004, 0x10000000004, 0x1000000000000000005,
  0x1000000000000000000000000000000000000000000000000000000000000000000000000000000000000000000000000000000000000000000000000000000000000000007,
  0x1000000000000000008,
  0x1000000000000000000000000000000000000000000000000000000000000000000000000000000000000000000000000000000000000000000000000000000000000000009,
  0x100000000000005000a, 0x100000000000000000a, 0x10000000000000000000000000b,
  0x10000000000000000000000000000000000000000000000000000000000000000000000000000000000000000000000000000000000000000000000000000000000000000000000000d,
  0x10000000000000000000000000e,
  0x10000000000000000000000000000000000000000000000000000000000000000000000000000000000000000000000000000000000000000000000000000000000000000000000000f,
  0x100000000000000000000050010, 0x100000000000000000000000010, 0x10000000000000000000000000000000011,
  0x10000000000000000000000000000000000000000000000000000000000000000000000000000000000000000000000000000000000000000000000000000000000000000000000000000000013,
  0x10000000000000000000000000000000014,
  0x10000000000000000000000000000000000000000000000000000000000000000000000000000000000000000000000000000000000000000000000000000000000000000000000000000000015,
  0x10000000000000000000000000000050016, 0x10000000000000000000000000000000016, 0x1000000000000000000000000000000000000000017,
  0x1000000000000000000000000000000000000000000000000000000000000000000000000000000000000000000000000000000000000000000000000000000000000000000000000000000000000000019,
  0x100000000000000000000000000000000000000001a,
  0x100000000000000000000000000000000000000000000000000000000000000000000000000000000000000000000000000000000000000000000000000000000000000000000000000000000000000001b,
  0x100000000000000000000000000000000000005001c, 0x100000000000000000000000000000000000000001c,
  0x10000000000000000000000000000000000000000000000001d,
  0x10000000000000000000000000000000000000000000000000000000000000000000000000000000000000000000000000000000000000000000000000000000000000000000000000000000000000000000000001f,
  0x100000000000000000000000000000000000000000000000020,
  0x100000000000000000000000000000000000000000000000000000000000000000000000000000000000000000000000000000000000000000000000000000000000000000000000000000000000000000000000021,
  0x100000000000000000000000000000000000000000000050022, 0x100000000000000000000000000000000000000000000000022,
  0x10000000000000000000000000000000000000000000000000000000023,
  0x10000000000000000000000000000000000000000000000000000000000000000000000000000000000000000000000000000000000000000000000000000000000000000000000000000000000000000000000000000000025,
  0x10000000000000000000000000000000000000000000000000000000026,
  0x10000000000000000000000000000000000000000000000000000000000000000000000000000000000000000000000000000000000000000000000000000000000000000000000000000000000000000000000000000000027,
  0x10000000000000000000000000000000000000000000000000000050028, 0x10000000000000000000000000000000000000000000000000000000028,
  0x1000000000000000000000000000000000000000000000000000000000000000029,
  0x100000000000000000000000000000000000000000000000000000000000000000000000000000000000000000000000000000000000000000000000000000000000000000000000000000000000000000000000000000000000000002b,
  0x100000000000000000000000000000000000000000000000000000000000000002c,
  0x100000000000000000000000000000000000000000000000000000000000000000000000000000000000000000000000000000000000000000000000000000000000000000000000000000000000000000000000000000000000000002d,
  0x100000000000000000000000000000000000000000000000000000000000005002e,
  0x100000000000000000000000000000000000000000000000000000000000000002e,
  0x10000000000000000000000000000000000000000000000000000000000000000000000002f,
  0x100000000000000000000000000000000000000000000000000000000000000000000000000000000000000000000000000000000000000000000000000000000000000000000000000000000000000000000000000000000000000000000000031,
  0x100000000000000000000000000000000000000000000000000000000000000000000000032,
  0x100000000000000000000000000000000000000000000000000000000000000000000000000000000000000000000000000000000000000000000000000000000000000000000000000000000000000000000000000000000000000000000000033,
  0x100000000000000000000000000000000000000000000000000000000000000000000050034,
  0x100000000000000000000000000000000000000000000000000000000000000000000000034,
  0x10000000000000000000000000000000000000000000000000000000000000000000000000000000035,
  0x10000000000000000000000000000000000000000000000000000000000000000000000000000000000000000000000000000000000000000000000000000000000000000000000000000000000000000000000000000000000000000000000000000000037,
  0x10000000000000000000000000000000000000000000000000000000000000000000000000000000038,
  0x10000000000000000000000000000000000000000000000000000000000000000000000000000000000000000000000000000000000000000000000000000000000000000000000000000000000000000000000000000000000000000000000000000000039,
  0x1000000000000000000000000000000000000000000000000000000000000000000000000000005003a,
  0x1000000000000000000000000000000000000000000000000000000000000000000000000000000003a,
  0x100000000000000000000000000000000000000000000000000000000000000000000000000000000000000003b,
  0x100000000000000000000000000000000000000000000000000000000000000000000000000000000000000000000000000000000000000000000000000000000000000000000000000000000000000000000000000000000000000000000000000000000000000003d,
  0x100000000000000000000000000000000000000000000000000000000000000000000000000000000000000003e,
  0x100000000000000000000000000000000000000000000000000000000000000000000000000000000000000000000000000000000000000000000000000000000000000000000000000000000000000000000000000000000000000000000000000000000000000003f,
  0x1000000000000000000000000000000000000000000000000000000000000000000000000000000000000050040,
  0x1000000000000000000000000000000000000000000000000000000000000000000000000000000000000000040,
  0x100000000000000000000000000000000000000000000000000000000000000000000000000000000000000000000000041,
  0x100000000000000000000000000000000000000000000000000000000000000000000000000000000000000000000000000000000000000000000000000000000000000000000000000000000000000000000000000000000000000000000000000000000000000000000000043,
  0x100000000000000000000000000000000000000000000000000000000000000000000000000000000000000000000000044,
  0x100000000000000000000000000000000000000000000000000000000000000000000000000000000000000000000000000000000000000000000000000000000000000000000000000000000000000000000000000000000000000000000000000000000000000000000000045,
  0x100000000000000000000000000000000000000000000000000000000000000000000000000000000000000000000050046,
  0x100000000000000000000000000000000000000000000000000000000000000000000000000000000000000000000000046,
  0x10000000000000000000000000000000000000000000000000000000000000000000000000000000000000000000000000000000047,
  0x10000000000000000000000000000000000000000000000000000000000000000000000000000000000000000000000000000000000000000000000000000000000000000000000000000000000000000000000000000000000000000000000000000000000000000000000000000000049,
  0x1000000000000000000000000000000000000000000000000000000000000000000000000000000000000000000000000000000004a,
  0x1000000000000000000000000000000000000000000000000000000000000000000000000000000000000000000000000000000000000000000000000000000000000000000000000000000000000000000000000000000000000000000000000000000000000000000000000000000004b,
  0x1000000000000000000000000000000000000000000000000000000000000000000000000000000000000000000000000000005004c,
  0x1000000000000000000000000000000000000000000000000000000000000000000000000000000000000000000000000000000004c,
  0x100000000000000000000000000000000000000000000000000000000000000000000000000000000000000000000000000000000000000004d,
  0x100000000000000000000000000000000000000000000000000000000000000000000000000000000000000000000000000000000000000000000000000000000000000000000000000000000000000000000000000000000000000000000000000000000000000000000000000000000000000004f,
  0x1000000000000000000000000000000000000000000000000000000000000000000000000000000000000000000000000000000000000000050,
  0x1000000000000000000000000000000000000000000000000000000000000000000000000000000000000000000000000000000000000000000000000000000000000000000000000000000000000000000000000000000000000000000000000000000000000000000000000000000000000000051,
  0x1000000000000000000000000000000000000000000000000000000000000000000000000000000000000000000000000000000000000050052,
  0x1000000000000000000000000000000000000000000000000000000000000000000000000000000000000000000000000000000000000000052,
  0x100000000000000000000000000000000000000000000000000000000000000000000000000000000000000000000000000000000000000000000000053,
  0x10000000000000000000000000000000000000000000000000000000000000000000000000000000000000000000000000000000000000000000000000000000054,
  0x1000000000000000000000000000000000000000000000000000000000000000000000000000000000000000000000000000000000000000000000000000000000000000055,
  0x100000000000000000000000000000000000000000000000000000000000000000000000000000000000000000000000000000000000000000000000000000000000000000000000056,
  0x10000000000000000000000000000000000000000000000000000000000000000000000000000000000000000000000000000000000000000000000000000000000000000000000000000000057,
  0x1000000000000000000000000000000000000000000000000000000000000000000000000000000000000000000000000000000000000000000000000000000000000000000000000000000000000000058,
  0x100000000000000000000000000000000000000000000000000000000000000000000000000000000000000000000000000000000000000000000000000000000000000000000000000000000000000000000000059,
  0x1000000000000000000000000000000000000000000000000000000000000000000000000000000000000000000000000000000000000000000000000000000000000000000000000000000000000000000000000000000005a,
  0x100000000000000000000000000000000000000000000000000000000000000000000000000000000000000000000000000000000000000000000000000000000000000000000000000000000000000000000000000000000000000005b,
  0x10000000000000000000000000000000000000000000000000000000000000000000000000000000000000000000000000000000000000000000000000000000000000000000000000000000000000000000000000000000000000000000000005c,
  0x1000000000000000000000000000000000000000000000000000000000000000000000000000000000000000000000000000000000000000000000000000000000000000000000000000000000000000000000000000000000000000000000000000000005d,
  0x100000000000000000000000000000000000000000000000000000000000000000000000000000000000000000000000000000000000000000000000000000000000000000000000000000000000000000000000000000000000000000000000000000000000000005e,
  0x10000000000000000000000000000000000000000000000000000000000000000000000000000000000000000000000000000000000000000000000000000000000000000000000000000000000000000000000000000000000000000000000000000000000000000000000005f,
  0x10000000000000000000000000000000000000000000000000000000000000000000000000000000000000000000000000000000000000000000000000000000000000000000000000000000000000000000000000000000000000000000000000000000000000000000000000000000060,
  0x1000000000000000000000000000000000000000000000000000000000000000000000000000000000000000000000000000000000000000000000000000000000000000000000000000000000000000000000000000000000000000000000000000000000000000000000000000000000000000061,
  0x100000000000000000000000000000000000000000000000000000000000000000000000000000000000000000000000000000000000000000000000000000000000000000000000000000000000000000000000000000000000000000000000000000000000000000000000000000000000000000000000063,
  0x100000000000000000000000000000000000000000000000000000000000000000000000000000000000000000000000000000000000000000000000064,
  0x100000000000000000000000000000000000000000000000000000000000000000000000000000000000000000000000000000000000000000000050065,
  0x100000000000000000000000000000000000000000000000000000000000000000000000000000000000000000000000000000000000000000000000065,
  0x10000000000000000000000000000000000000000000000000000000000000000000000000000000000000000000000000000000000000000000000000000000066,
  0x1000000000000000000000000000000000000000000000000000000000000000000000000000000000000000000000000000000000000000000000000000000000000000067,
  0x100000000000000000000000000000000000000000000000000000000000000000000000000000000000000000000000000000000000000000000000000000000000000000000000068,
  0x10000000000000000000000000000000000000000000000000000000000000000000000000000000000000000000000000000000000000000000000000000000000000000000000000000000069,
  0x100000000000000000000000000000000000000000000000000000000000000000000000000000000000000000000000000000000000000000000000000000000000000000000000000000000000000006a,
  0x10000000000000000000000000000000000000000000000000000000000000000000000000000000000000000000000000000000000000000000000000000000000000000000000000000000000000000000000006b,
  0x1000000000000000000000000000000000000000000000000000000000000000000000000000000000000000000000000000000000000000000000000000000000000000000000000000000000000000000000000000000006c,
  0x100000000000000000000000000000000000000000000000000000000000000000000000000000000000000000000000000000000000000000000000000000000000000000000000000000000000000000000000000000000000000006d,
  0x10000000000000000000000000000000000000000000000000000000000000000000000000000000000000000000000000000000000000000000000000000000000000000000000000000000000000000000000000000000000000000000000006e,
  0x1000000000000000000000000000000000000000000000000000000000000000000000000000000000000000000000000000000000000000000000000000000000000000000000000000000000000000000000000000000000000000000000000000000006f,
  0x1000000000000000000000000000000000000000000000000000000000000000000000000000000000000000000000000000000000000000000000000000000000000000000000000000000000000000000000000000000000000000000000000000000000000000070,
  0x100000000000000000000000000000000000000000000000000000000000000000000000000000000000000000000000000000000000000000000000000000000000000000000000000000000000000000000000000000000000000000000000000000000000000000000000071,
  0x10000000000000000000000000000000000000000000000000000000000000000000000000000000000000000000000000000000000000000000000000000000000000000000000000000000000000000000000000000000000000000000000000000000000000000000000000000000072,
  0x1000000000000000000000000000000000000000000000000000000000000000000000000000000000000000000000000000000000000000000000000000000000000000000000000000000000000000000000000000000000000000000000000000000000000000000000000000000000000000073,
  0x100000000000000000000000000000000000000000000000000000000000000000000000000000000000000000000000000000000000000000000000000000000000000000000000000000000000000000000000000000000000000000000000000000000000000000000000000000000000000000000000074,
  0x10000000000000000000000000000000000000000000000000000000000000000000000000000000000000000000000000000000000000000000000000000000075,
  0x1000000000000000000000000000000000000000000000000000000000000000000000000000000000000000000000000000000000000000000000000000000000000000076,
  0x100000000000000000000000000000000000000000000000000000000000000000000000000000000000000000000000000000000000000000000000000000000000000000000000077,
  0x10000000000000000000000000000000000000000000000000000000000000000000000000000000000000000000000000000000000000000000000000000000000000000000000000000000078,
  0x1000000000000000000000000000000000000000000000000000000000000000000000000000000000000000000000000000000000000000000000000000000000000000000000000000000000000000079,
  0x10000000000000000000000000000000000000000000000000000000000000000000000000000000000000000000000000000000000000000000000000000000000000000000000000000000000000000000000007a,
  0x1000000000000000000000000000000000000000000000000000000000000000000000000000000000000000000000000000000000000000000000000000000000000000000000000000000000000000000000000000000007b,
  0x100000000000000000000000000000000000000000000000000000000000000000000000000000000000000000000000000000000000000000000000000000000000000000000000000000000000000000000000000000000000000007c,
  0x10000000000000000000000000000000000000000000000000000000000000000000000000000000000000000000000000000000000000000000000000000000000000000000000000000000000000000000000000000000000000000000000007d,
  0x1000000000000000000000000000000000000000000000000000000000000000000000000000000000000000000000000000000000000000000000000000000000000000000000000000000000000000000000000000000000000000000000000000000007e,
  0x100000000000000000000000000000000000000000000000000000000000000000000000000000000000000000000000000000000000000000000000000000000000000000000000000000000000000000000000000000000000000000000000000000000000000007f,
  0x100000000000000000000000000000000000000000000000000000000000000000000000000000000000000000000000000000000000000000000000000000000000000000000000000000000000000000000000000000000000000000000000000000000000000000000000080,
  0x10000000000000000000000000000000000000000000000000000000000000000000000000000000000000000000000000000000000000000000000000000000000000000000000000000000000000000000000000000000000000000000000000000000000000000000000000000000081,
  0x1000000000000000000000000000000000000000000000000000000000000000000000000000000000000000000000000000000000000000000000000000000000000000000000000000000000000000000000000000000000000000000000000000000000000000000000000000000000000000082,
  0x100000000000000000000000000000000000000000000000000000000000000000000000000000000000000000000000000000000000000000000000000000000000000000000000000000000000000000000000000000000000000000000000000000000000000000000000000000000000000000000000083,
  0x10000000000000000000000000000000000000000000000000000000000000000000000000000000000000000000000000000000000000000000000000000000000000000000000000000000000000000000000000000000000000000000000000000000000000000000000000000000000000000000000000000000085,
  0x10000000000000000000000000000000000000000000000000000000000000000000000000000000000000000000000000000000000000000000000000000000086,
  0x10000000000000000000000000000000000000000000000000000000000000000000000000000000000000000000000000000000000000000000000000000050087,
  0x10000000000000000000000000000000000000000000000000000000000000000000000000000000000000000000000000000000000000000000000000000000087,
  0x1000000000000000000000000000000000000000000000000000000000000000000000000000000000000000000000000000000000000000000000000000000000000000088,
  0x100000000000000000000000000000000000000000000000000000000000000000000000000000000000000000000000000000000000000000000000000000000000000000000000089,
  0x1000000000000000000000000000000000000000000000000000000000000000000000000000000000000000000000000000000000000000000000000000000000000000000000000000000008a,
  0x100000000000000000000000000000000000000000000000000000000000000000000000000000000000000000000000000000000000000000000000000000000000000000000000000000000000000008b,
  0x10000000000000000000000000000000000000000000000000000000000000000000000000000000000000000000000000000000000000000000000000000000000000000000000000000000000000000000000008c,
  0x1000000000000000000000000000000000000000000000000000000000000000000000000000000000000000000000000000000000000000000000000000000000000000000000000000000000000000000000000000000008d,
  0x100000000000000000000000000000000000000000000000000000000000000000000000000000000000000000000000000000000000000000000000000000000000000000000000000000000000000000000000000000000000000008e,
  0x10000000000000000000000000000000000000000000000000000000000000000000000000000000000000000000000000000000000000000000000000000000000000000000000000000000000000000000000000000000000000000000000008f,
  0x10000000000000000000000000000000000000000000000000000000000000000000000000000000000000000000000000000000000000000000000000000000000000000000000000000000000000000000000000000000000000000000000000000000090,
  0x1000000000000000000000000000000000000000000000000000000000000000000000000000000000000000000000000000000000000000000000000000000000000000000000000000000000000000000000000000000000000000000000000000000000000000091,
  0x100000000000000000000000000000000000000000000000000000000000000000000000000000000000000000000000000000000000000000000000000000000000000000000000000000000000000000000000000000000000000000000000000000000000000000000000092,
  0x10000000000000000000000000000000000000000000000000000000000000000000000000000000000000000000000000000000000000000000000000000000000000000000000000000000000000000000000000000000000000000000000000000000000000000000000000000000093,
  0x1000000000000000000000000000000000000000000000000000000000000000000000000000000000000000000000000000000000000000000000000000000000000000000000000000000000000000000000000000000000000000000000000000000000000000000000000000000000000000094,
  0x100000000000000000000000000000000000000000000000000000000000000000000000000000000000000000000000000000000000000000000000000000000000000000000000000000000000000000000000000000000000000000000000000000000000000000000000000000000000000000000000095,
  0x10000000000000000000000000000000000000000000000000000000000000000000000000000000000000000000000000000000000000000000000000000000000000000000000000000000000000000000000000000000000000000000000000000000000000000000000000000000000000000000000000000000096,
  0x1000000000000000000000000000000000000000000000000000000000000000000000000000000000000000000000000000000000000000000000000000000000000000000000000000000000000000000000000000000000000000000000000000000000000000000000000000000000000000000000000000000000000000097]
  cond := ⟨[.x 272, .x 274, .x 276, .x 278, .x 280, .x 282, .x 284, .x 286, .x 288, .x 290, .x 292, .x 294, .x 296, .x 298, .x 300, .x 302, .c 0], [0x12f, 0x131, 0x133, 0x135, 0x137, 0x139, 0x13b, 0x13d, 0x13f, 0x141, 0x143, 0x145, 0x147, 0x149, 0x14b, 0x14d, 0x14f], 336,
    [0x10000000098, 0x1000000000000000099, 0x10000000000000000000000009a, 0x1000000000000000000000000000000009b,
  0x100000000000000000000000000000000000000009c, 0x10000000000000000000000000000000000000000000000009d,
  0x1000000000000000000000000000000000000000000000000000000009e, 0x100000000000000000000000000000000000000000000000000000000000000009f,
  0x1000000000000000000000000000000000000000000000000000000000000000000000000a0,
  0x100000000000000000000000000000000000000000000000000000000000000000000000000000000a1,
  0x10000000000000000000000000000000000000000000000000000000000000000000000000000000000000000a2,
  0x1000000000000000000000000000000000000000000000000000000000000000000000000000000000000000000000000a3,
  0x100000000000000000000000000000000000000000000000000000000000000000000000000000000000000000000000000000000a4,
  0x10000000000000000000000000000000000000000000000000000000000000000000000000000000000000000000000000000000000000000a5,
  0x1000000000000000000000000000000000000000000000000000000000000000000000000000000000000000000000000000000000000000000000000a6,
  0x100000000000000000000000000000000000000000000000000000000000000000000000000000000000000000000000000000000000000000000000000000000a7,
  0x10000000000000000000000000000000000000000000000000000000000000000000000000000000000000000000000000000000000000000000000000000000000000000a8],
    [0x10000000098, 0x1000000000000000099, 0x10000000000000000000000009a, 0x1000000000000000000000000000000009b,
  0x100000000000000000000000000000000000000009c, 0x10000000000000000000000000000000000000000000000009d,
  0x1000000000000000000000000000000000000000000000000000000009e, 0x100000000000000000000000000000000000000000000000000000000000000009f,
  0x1000000000000000000000000000000000000000000000000000000000000000000000000a0,
  0x100000000000000000000000000000000000000000000000000000000000000000000000000000000a1,
  0x10000000000000000000000000000000000000000000000000000000000000000000000000000000000000000a2,
  0x1000000000000000000000000000000000000000000000000000000000000000000000000000000000000000000000000a3,
  0x100000000000000000000000000000000000000000000000000000000000000000000000000000000000000000000000000000000a4,
  0x10000000000000000000000000000000000000000000000000000000000000000000000000000000000000000000000000000000000000000a5,
  0x1000000000000000000000000000000000000000000000000000000000000000000000000000000000000000000000000000000000000000000000000a6,
  0x100000000000000000000000000000000000000000000000000000000000000000000000000000000000000000000000000000000000000000000000000000000a7,
  0x100000000a9, 0x10000000000000000aa, 0x1000000000000000000000000ab, 0x100000000000000000000000000000000ac,
  0x10000000000000000000000000000000000000000ad, 0x1000000000000000000000000000000000000000000000000ae,
  0x100000000000000000000000000000000000000000000000000000000af, 0x10000000000000000000000000000000000000000000000000000000000000000b0,
  0x1000000000000000000000000000000000000000000000000000000000000000000000000b1,
  0x100000000000000000000000000000000000000000000000000000000000000000000000000000000b2,
  0x10000000000000000000000000000000000000000000000000000000000000000000000000000000000000000b3,
  0x1000000000000000000000000000000000000000000000000000000000000000000000000000000000000000000000000b4,
  0x100000000000000000000000000000000000000000000000000000000000000000000000000000000000000000000000000000000b5,
  0x10000000000000000000000000000000000000000000000000000000000000000000000000000000000000000000000000000000000000000b6,
  0x1000000000000000000000000000000000000000000000000000000000000000000000000000000000000000000000000000000000000000000000000b7,
  0x100000000000000000000000000000000000000000000000000000000000000000000000000000000000000000000000000000000000000000000000000000000b8],
    [0x100000000a9, 0x10000000000000000aa, 0x1000000000000000000000000ab, 0x100000000000000000000000000000000ac,
  0x10000000000000000000000000000000000000000ad, 0x1000000000000000000000000000000000000000000000000ae,
  0x100000000000000000000000000000000000000000000000000000000af, 0x10000000000000000000000000000000000000000000000000000000000000000b0,
  0x1000000000000000000000000000000000000000000000000000000000000000000000000b1,
  0x100000000000000000000000000000000000000000000000000000000000000000000000000000000b2,
  0x10000000000000000000000000000000000000000000000000000000000000000000000000000000000000000b3,
  0x1000000000000000000000000000000000000000000000000000000000000000000000000000000000000000000000000b4,
  0x100000000000000000000000000000000000000000000000000000000000000000000000000000000000000000000000000000000b5,
  0x10000000000000000000000000000000000000000000000000000000000000000000000000000000000000000000000000000000000000000b6,
  0x1000000000000000000000000000000000000000000000000000000000000000000000000000000000000000000000000000000000000000000000000b7,
  0x100000000000000000000000000000000000000000000000000000000000000000000000000000000000000000000000000000000000000000000000000000000b8]⟩

theorem c4 : redChecks from_montgomery full [] k4 (lin true 1 W (argsA full.length)) R 4294967296 R p W W1 full full1 = true := by decide +kernel

def k5 : RedCert where
  zs := [11, 25, 39, 53, 67, 81, 95, 0x6d, 0x7b, 0x89, 0x97, 0xa5, 0xb3, 0xc1, 0xe7, 0x12d]
  zc := [[0x6f0000000001, 0x10000000003, 0x10000000005],
    [0x6f0000000007, 0x10000000009, 0x1000000000c],
    [0x6f000000000e, 0x10000000010, 0x10000000013],
    [0x6f0000000015, 0x10000000017, 0x1000000001a],
    [0x6f000000001c, 0x1000000001e, 0x10000000021],
    [0x6f0000000023, 0x10000000025, 0x10000000028],
    [0x6f000000002a, 0x1000000002c, 0x1000000002f],
    [0x6f0000000031, 0x10000000033, 0x10000000036],
    [0x6f0000000038, 0x1000000003a, 0x1000000003d],
    [0x6f000000003f, 0x10000000041, 0x10000000044],
    [0x6f0000000046, 0x10000000048, 0x1000000004b],
    [0x6f000000004d, 0x1000000004f, 0x10000000052],
    [0x6f0000000054, 0x10000000056, 0x10000000059],
    [0x6f000000005b, 0x1000000005d, 0x10000000060],
    [0x6f0000000070, 0x10000000072, 0x10000000073],
    [0x6f0000000093, 0x10000000095, 0x10000000096]]
  qs := [3, 15, 29, 43, 57, 71, 85, 99, 0x71, 0x7f, 0x8d, 0x9b, 0xa9, 0xb7, 0xe1, 0x127]
  main := [0x10000000000,
  0x10000000000000000000000000000000000000000000000000000000000000000000000000000000000000000000000000000000000000000000000000000000002,
  0x10000000003, 0x1000000000000000004, 0x10000050005, 0x10000000005, 0x1000000000000000006,
  0x1000000000000000000000000000000000000000000000000000000000000000000000000000000000000000000000000000000000000000000000000000000000000000008,
  0x1000000000000000009,
  0x100000000000000000000000000000000000000000000000000000000000000000000000000000000000000000000000000000000000000000000000000000000000000000a,
  0x10000000000000000000000000b, 0x100000000000005000c, 0x100000000000000000c, 0x10000000000000000000000000d,
  0x10000000000000000000000000000000000000000000000000000000000000000000000000000000000000000000000000000000000000000000000000000000000000000000000000f,
  0x100000000000000000000000010,
  0x100000000000000000000000000000000000000000000000000000000000000000000000000000000000000000000000000000000000000000000000000000000000000000000000011,
  0x10000000000000000000000000000000012, 0x100000000000000000000050013, 0x100000000000000000000000013, 0x10000000000000000000000000000000014,
  0x10000000000000000000000000000000000000000000000000000000000000000000000000000000000000000000000000000000000000000000000000000000000000000000000000000000016,
  0x10000000000000000000000000000000017,
  0x10000000000000000000000000000000000000000000000000000000000000000000000000000000000000000000000000000000000000000000000000000000000000000000000000000000018,
  0x1000000000000000000000000000000000000000019, 0x1000000000000000000000000000005001a, 0x1000000000000000000000000000000001a,
  0x100000000000000000000000000000000000000001b,
  0x100000000000000000000000000000000000000000000000000000000000000000000000000000000000000000000000000000000000000000000000000000000000000000000000000000000000000001d,
  0x100000000000000000000000000000000000000001e,
  0x100000000000000000000000000000000000000000000000000000000000000000000000000000000000000000000000000000000000000000000000000000000000000000000000000000000000000001f,
  0x100000000000000000000000000000000000000000000000020, 0x1000000000000000000000000000000000000050021,
  0x1000000000000000000000000000000000000000021, 0x100000000000000000000000000000000000000000000000022,
  0x100000000000000000000000000000000000000000000000000000000000000000000000000000000000000000000000000000000000000000000000000000000000000000000000000000000000000000000000024,
  0x100000000000000000000000000000000000000000000000025,
  0x100000000000000000000000000000000000000000000000000000000000000000000000000000000000000000000000000000000000000000000000000000000000000000000000000000000000000000000000026,
  0x10000000000000000000000000000000000000000000000000000000027, 0x100000000000000000000000000000000000000000000050028,
  0x100000000000000000000000000000000000000000000000028, 0x10000000000000000000000000000000000000000000000000000000029,
  0x1000000000000000000000000000000000000000000000000000000000000000000000000000000000000000000000000000000000000000000000000000000000000000000000000000000000000000000000000000000002b,
  0x1000000000000000000000000000000000000000000000000000000002c,
  0x1000000000000000000000000000000000000000000000000000000000000000000000000000000000000000000000000000000000000000000000000000000000000000000000000000000000000000000000000000000002d,
  0x100000000000000000000000000000000000000000000000000000000000000002e, 0x1000000000000000000000000000000000000000000000000000005002f,
  0x1000000000000000000000000000000000000000000000000000000002f, 0x1000000000000000000000000000000000000000000000000000000000000000030,
  0x1000000000000000000000000000000000000000000000000000000000000000000000000000000000000000000000000000000000000000000000000000000000000000000000000000000000000000000000000000000000000000032,
  0x1000000000000000000000000000000000000000000000000000000000000000033,
  0x1000000000000000000000000000000000000000000000000000000000000000000000000000000000000000000000000000000000000000000000000000000000000000000000000000000000000000000000000000000000000000034,
  0x100000000000000000000000000000000000000000000000000000000000000000000000035,
  0x1000000000000000000000000000000000000000000000000000000000000050036,
  0x1000000000000000000000000000000000000000000000000000000000000000036,
  0x100000000000000000000000000000000000000000000000000000000000000000000000037,
  0x100000000000000000000000000000000000000000000000000000000000000000000000000000000000000000000000000000000000000000000000000000000000000000000000000000000000000000000000000000000000000000000000039,
  0x10000000000000000000000000000000000000000000000000000000000000000000000003a,
  0x10000000000000000000000000000000000000000000000000000000000000000000000000000000000000000000000000000000000000000000000000000000000000000000000000000000000000000000000000000000000000000000000003b,
  0x1000000000000000000000000000000000000000000000000000000000000000000000000000000003c,
  0x10000000000000000000000000000000000000000000000000000000000000000000005003d,
  0x10000000000000000000000000000000000000000000000000000000000000000000000003d,
  0x1000000000000000000000000000000000000000000000000000000000000000000000000000000003e,
  0x10000000000000000000000000000000000000000000000000000000000000000000000000000000000000000000000000000000000000000000000000000000000000000000000000000000000000000000000000000000000000000000000000000000040,
  0x10000000000000000000000000000000000000000000000000000000000000000000000000000000041,
  0x10000000000000000000000000000000000000000000000000000000000000000000000000000000000000000000000000000000000000000000000000000000000000000000000000000000000000000000000000000000000000000000000000000000042,
  0x1000000000000000000000000000000000000000000000000000000000000000000000000000000000000000043,
  0x10000000000000000000000000000000000000000000000000000000000000000000000000000050044,
  0x10000000000000000000000000000000000000000000000000000000000000000000000000000000044,
  0x1000000000000000000000000000000000000000000000000000000000000000000000000000000000000000045,
  0x1000000000000000000000000000000000000000000000000000000000000000000000000000000000000000000000000000000000000000000000000000000000000000000000000000000000000000000000000000000000000000000000000000000000000000047,
  0x1000000000000000000000000000000000000000000000000000000000000000000000000000000000000000048,
  0x1000000000000000000000000000000000000000000000000000000000000000000000000000000000000000000000000000000000000000000000000000000000000000000000000000000000000000000000000000000000000000000000000000000000000000049,
  0x10000000000000000000000000000000000000000000000000000000000000000000000000000000000000000000000004a,
  0x100000000000000000000000000000000000000000000000000000000000000000000000000000000000005004b,
  0x100000000000000000000000000000000000000000000000000000000000000000000000000000000000000004b,
  0x10000000000000000000000000000000000000000000000000000000000000000000000000000000000000000000000004c,
  0x10000000000000000000000000000000000000000000000000000000000000000000000000000000000000000000000000000000000000000000000000000000000000000000000000000000000000000000000000000000000000000000000000000000000000000000000004e,
  0x10000000000000000000000000000000000000000000000000000000000000000000000000000000000000000000000004f,
  0x100000000000000000000000000000000000000000000000000000000000000000000000000000000000000000000000000000000000000000000000000000000000000000000000000000000000000000000000000000000000000000000000000000000000000000000000050,
  0x10000000000000000000000000000000000000000000000000000000000000000000000000000000000000000000000000000000051,
  0x100000000000000000000000000000000000000000000000000000000000000000000000000000000000000000000050052,
  0x100000000000000000000000000000000000000000000000000000000000000000000000000000000000000000000000052,
  0x10000000000000000000000000000000000000000000000000000000000000000000000000000000000000000000000000000000053,
  0x10000000000000000000000000000000000000000000000000000000000000000000000000000000000000000000000000000000000000000000000000000000000000000000000000000000000000000000000000000000000000000000000000000000000000000000000000000000055,
  0x10000000000000000000000000000000000000000000000000000000000000000000000000000000000000000000000000000000056,
  0x10000000000000000000000000000000000000000000000000000000000000000000000000000000000000000000000000000000000000000000000000000000000000000000000000000000000000000000000000000000000000000000000000000000000000000000000000000000057,
  0x1000000000000000000000000000000000000000000000000000000000000000000000000000000000000000000000000000000000000000058,
  0x10000000000000000000000000000000000000000000000000000000000000000000000000000000000000000000000000000050059,
  0x10000000000000000000000000000000000000000000000000000000000000000000000000000000000000000000000000000000059,
  0x100000000000000000000000000000000000000000000000000000000000000000000000000000000000000000000000000000000000000005a,
  0x100000000000000000000000000000000000000000000000000000000000000000000000000000000000000000000000000000000000000000000000000000000000000000000000000000000000000000000000000000000000000000000000000000000000000000000000000000000000000005c,
  0x100000000000000000000000000000000000000000000000000000000000000000000000000000000000000000000000000000000000000005d,
  0x100000000000000000000000000000000000000000000000000000000000000000000000000000000000000000000000000000000000000000000000000000000000000000000000000000000000000000000000000000000000000000000000000000000000000000000000000000000000000005e,
  0x10000000000000000000000000000000000000000000000000000000000000000000000000000000000000000000000000000000000000000000000005f,
  0x1000000000000000000000000000000000000000000000000000000000000000000000000000000000000000000000000000000000000050060,
  0x1000000000000000000000000000000000000000000000000000000000000000000000000000000000000000000000000000000000000000060,
  0x100000000000000000000000000000000000000000000000000000000000000000000000000000000000000000000000000000000000000000000000061,
  0x10000000000000000000000000000000000000000000000000000000000000000000000000000000000000000000000000000000000000000000000000000000062,
  0x1000000000000000000000000000000000000000000000000000000000000000000000000000000000000000000000000000000000000000000000000000000000000000063,
  0x100000000000000000000000000000000000000000000000000000000000000000000000000000000000000000000000000000000000000000000000000000000000000000000000064,
  0x10000000000000000000000000000000000000000000000000000000000000000000000000000000000000000000000000000000000000000000000000000000000000000000000000000000065,
  0x1000000000000000000000000000000000000000000000000000000000000000000000000000000000000000000000000000000000000000000000000000000000000000000000000000000000000000066,
  0x100000000000000000000000000000000000000000000000000000000000000000000000000000000000000000000000000000000000000000000000000000000000000000000000000000000000000000000000067,
  0x10000000000000000000000000000000000000000000000000000000000000000000000000000000000000000000000000000000000000000000000000000000000000000000000000000000000000000000000000000000068,
  0x1000000000000000000000000000000000000000000000000000000000000000000000000000000000000000000000000000000000000000000000000000000000000000000000000000000000000000000000000000000000000000069,
  0x10000000000000000000000000000000000000000000000000000000000000000000000000000000000000000000000000000000000000000000000000000000000000000000000000000000000000000000000000000000000000000000000006a,
  0x1000000000000000000000000000000000000000000000000000000000000000000000000000000000000000000000000000000000000000000000000000000000000000000000000000000000000000000000000000000000000000000000000000000006b,
  0x100000000000000000000000000000000000000000000000000000000000000000000000000000000000000000000000000000000000000000000000000000000000000000000000000000000000000000000000000000000000000000000000000000000000000006c,
  0x10000000000000000000000000000000000000000000000000000000000000000000000000000000000000000000000000000000000000000000000000000000000000000000000000000000000000000000000000000000000000000000000000000000000000000000000006d,
  0x1000000000000000000000000000000000000000000000000000000000000000000000000000000000000000000000000000000000000000000000000000000000000000000000000000000000000000000000000000000000000000000000000000000000000000000000000000000006e,
  0x100000000000000000000000000000000000000000000000000000000000000000000000000000000000000000000000000000000000000000000000000000000000000000000000000000000000000000000000000000000000000000000000000000000000000000000000000000000000000006f,
  0x100000000000000000000000000000000000000000000000000000000000000000000000000000000000000000000000000000000000000000000000000000000000000000000000000000000000000000000000000000000000000000000000000000000000000000000000000000000000000000000000071,
  0x100000000000000000000000000000000000000000000000000000000000000000000000000000000000000000000000000000000000000000000000072,
  0x100000000000000000000000000000000000000000000000000000000000000000000000000000000000000000000000000000000000000000000050073,
  0x100000000000000000000000000000000000000000000000000000000000000000000000000000000000000000000000000000000000000000000000073,
  0x10000000000000000000000000000000000000000000000000000000000000000000000000000000000000000000000000000000000000000000000000000000074,
  0x1000000000000000000000000000000000000000000000000000000000000000000000000000000000000000000000000000000000000000000000000000000000000000075,
  0x100000000000000000000000000000000000000000000000000000000000000000000000000000000000000000000000000000000000000000000000000000000000000000000000076,
  0x10000000000000000000000000000000000000000000000000000000000000000000000000000000000000000000000000000000000000000000000000000000000000000000000000000000077,
  0x1000000000000000000000000000000000000000000000000000000000000000000000000000000000000000000000000000000000000000000000000000000000000000000000000000000000000000078,
  0x100000000000000000000000000000000000000000000000000000000000000000000000000000000000000000000000000000000000000000000000000000000000000000000000000000000000000000000000079,
  0x1000000000000000000000000000000000000000000000000000000000000000000000000000000000000000000000000000000000000000000000000000000000000000000000000000000000000000000000000000000007a,
  0x100000000000000000000000000000000000000000000000000000000000000000000000000000000000000000000000000000000000000000000000000000000000000000000000000000000000000000000000000000000000000007b,
  0x10000000000000000000000000000000000000000000000000000000000000000000000000000000000000000000000000000000000000000000000000000000000000000000000000000000000000000000000000000000000000000000000007c,
  0x1000000000000000000000000000000000000000000000000000000000000000000000000000000000000000000000000000000000000000000000000000000000000000000000000000000000000000000000000000000000000000000000000000000007d,
  0x100000000000000000000000000000000000000000000000000000000000000000000000000000000000000000000000000000000000000000000000000000000000000000000000000000000000000000000000000000000000000000000000000000000000000007e,
  0x10000000000000000000000000000000000000000000000000000000000000000000000000000000000000000000000000000000000000000000000000000000000000000000000000000000000000000000000000000000000000000000000000000000000000000000000007f,
  0x10000000000000000000000000000000000000000000000000000000000000000000000000000000000000000000000000000000000000000000000000000000000000000000000000000000000000000000000000000000000000000000000000000000000000000000000000000000080,
  0x1000000000000000000000000000000000000000000000000000000000000000000000000000000000000000000000000000000000000000000000000000000000000000000000000000000000000000000000000000000000000000000000000000000000000000000000000000000000000000081,
  0x100000000000000000000000000000000000000000000000000000000000000000000000000000000000000000000000000000000000000000000000000000000000000000000000000000000000000000000000000000000000000000000000000000000000000000000000000000000000000000000000082,
  0x10000000000000000000000000000000000000000000000000000000000000000000000000000000000000000000000000000000000000000000000000000000083,
  0x10000000000000000000000000000000000000000000000000000000000000000000000000000000000000000000000000000000000000000000000000000000084,
  0x1000000000000000000000000000000000000000000000000000000000000000000000000000000000000000000000000000000000000000000000000000000000000000085,
  0x100000000000000000000000000000000000000000000000000000000000000000000000000000000000000000000000000000000000000000000000000000000000000000000000086,
  0x10000000000000000000000000000000000000000000000000000000000000000000000000000000000000000000000000000000000000000000000000000000000000000000000000000000087,
  0x1000000000000000000000000000000000000000000000000000000000000000000000000000000000000000000000000000000000000000000000000000000000000000000000000000000000000000088,
  0x100000000000000000000000000000000000000000000000000000000000000000000000000000000000000000000000000000000000000000000000000000000000000000000000000000000000000000000000089,
  0x1000000000000000000000000000000000000000000000000000000000000000000000000000000000000000000000000000000000000000000000000000000000000000000000000000000000000000000000000000000008a,
  0x100000000000000000000000000000000000000000000000000000000000000000000000000000000000000000000000000000000000000000000000000000000000000000000000000000000000000000000000000000000000000008b,
  0x10000000000000000000000000000000000000000000000000000000000000000000000000000000000000000000000000000000000000000000000000000000000000000000000000000000000000000000000000000000000000000000000008c,
  0x1000000000000000000000000000000000000000000000000000000000000000000000000000000000000000000000000000000000000000000000000000000000000000000000000000000000000000000000000000000000000000000000000000000008d,
  0x100000000000000000000000000000000000000000000000000000000000000000000000000000000000000000000000000000000000000000000000000000000000000000000000000000000000000000000000000000000000000000000000000000000000000008e,
  0x10000000000000000000000000000000000000000000000000000000000000000000000000000000000000000000000000000000000000000000000000000000000000000000000000000000000000000000000000000000000000000000000000000000000000000000000008f,
  0x10000000000000000000000000000000000000000000000000000000000000000000000000000000000000000000000000000000000000000000000000000000000000000000000000000000000000000000000000000000000000000000000000000000000000000000000000000000090,
  0x1000000000000000000000000000000000000000000000000000000000000000000000000000000000000000000000000000000000000000000000000000000000000000000000000000000000000000000000000000000000000000000000000000000000000000000000000000000000000000091,
  0x100000000000000000000000000000000000000000000000000000000000000000000000000000000000000000000000000000000000000000000000000000000000000000000000000000000000000000000000000000000000000000000000000000000000000000000000000000000000000000000000092,
  0x10000000000000000000000000000000000000000000000000000000000000000000000000000000000000000000000000000000000000000000000000000000000000000000000000000000000000000000000000000000000000000000000000000000000000000000000000000000000000000000000000000000094,
  0x10000000000000000000000000000000000000000000000000000000000000000000000000000000000000000000000000000000000000000000000000000000095,
  0x10000000000000000000000000000000000000000000000000000000000000000000000000000000000000000000000000000000000000000000000000000050096,
  0x10000000000000000000000000000000000000000000000000000000000000000000000000000000000000000000000000000000000000000000000000000000096,
  0x1000000000000000000000000000000000000000000000000000000000000000000000000000000000000000000000000000000000000000000000000000000000000000097,
  0x100000000000000000000000000000000000000000000000000000000000000000000000000000000000000000000000000000000000000000000000000000000000000000000000098,
  0x10000000000000000000000000000000000000000000000000000000000000000000000000000000000000000000000000000000000000000000000000000000000000000000000000000000099,
  0x100000000000000000000000000000000000000000000000000000000000000000000000000000000000000000000000000000000000000000000000000000000000000000000000000000000000000009a,
  0x10000000000000000000000000000000000000000000000000000000000000000000000000000000000000000000000000000000000000000000000000000000000000000000000000000000000000000000000009b,
  0x1000000000000000000000000000000000000000000000000000000000000000000000000000000000000000000000000000000000000000000000000000000000000000000000000000000000000000000000000000000009c,
  0x100000000000000000000000000000000000000000000000000000000000000000000000000000000000000000000000000000000000000000000000000000000000000000000000000000000000000000000000000000000000000009d,
  0x10000000000000000000000000000000000000000000000000000000000000000000000000000000000000000000000000000000000000000000000000000000000000000000000000000000000000000000000000000000000000000000000009e,
  0x1000000000000000000000000000000000000000000000000000000000000000000000000000000000000000000000000000000000000000000000000000000000000000000000000000000000000000000000000000000000000000000000000000000009f,
  0x10000000000000000000000000000000000000000000000000000000000000000000000000000000000000000000000000000000000000000000000000000000000000000000000000000000000000000000000000000000000000000000000000000000000000000a0,
  0x1000000000000000000000000000000000000000000000000000000000000000000000000000000000000000000000000000000000000000000000000000000000000000000000000000000000000000000000000000000000000000000000000000000000000000000000000a1,
  0x100000000000000000000000000000000000000000000000000000000000000000000000000000000000000000000000000000000000000000000000000000000000000000000000000000000000000000000000000000000000000000000000000000000000000000000000000000000a2,
  0x10000000000000000000000000000000000000000000000000000000000000000000000000000000000000000000000000000000000000000000000000000000000000000000000000000000000000000000000000000000000000000000000000000000000000000000000000000000000000000a3,
  0x1000000000000000000000000000000000000000000000000000000000000000000000000000000000000000000000000000000000000000000000000000000000000000000000000000000000000000000000000000000000000000000000000000000000000000000000000000000000000000000000000a4,
  0x100000000000000000000000000000000000000000000000000000000000000000000000000000000000000000000000000000000000000000000000000000000000000000000000000000000000000000000000000000000000000000000000000000000000000000000000000000000000000000000000000000000a5,
  0x10000000000000000000000000000000000000000000000000000000000000000000000000000000000000000000000000000000000000000000000000000000000000000000000000000000000000000000000000000000000000000000000000000000000000000000000000000000000000000000000000000000000000000a6]
  cond := ⟨[.x 303, .x 305, .x 307, .x 309, .x 311, .x 313, .x 315, .x 317, .x 319, .x 321, .x 323, .x 325, .x 327, .x 329, .x 331, .x 333, .c 0], [0x14e, 0x150, 0x152, 0x154, 0x156, 0x158, 0x15a, 0x15c, 0x15e, 0x160, 0x162, 0x164, 0x166, 0x168, 0x16a, 0x16c, 0x16e], 367,
    [0x100000000a7, 0x10000000000000000a8, 0x1000000000000000000000000a9, 0x100000000000000000000000000000000aa,
  0x10000000000000000000000000000000000000000ab, 0x1000000000000000000000000000000000000000000000000ac,
  0x100000000000000000000000000000000000000000000000000000000ad, 0x10000000000000000000000000000000000000000000000000000000000000000ae,
  0x1000000000000000000000000000000000000000000000000000000000000000000000000af,
  0x100000000000000000000000000000000000000000000000000000000000000000000000000000000b0,
  0x10000000000000000000000000000000000000000000000000000000000000000000000000000000000000000b1,
  0x1000000000000000000000000000000000000000000000000000000000000000000000000000000000000000000000000b2,
  0x100000000000000000000000000000000000000000000000000000000000000000000000000000000000000000000000000000000b3,
  0x10000000000000000000000000000000000000000000000000000000000000000000000000000000000000000000000000000000000000000b4,
  0x1000000000000000000000000000000000000000000000000000000000000000000000000000000000000000000000000000000000000000000000000b5,
  0x100000000000000000000000000000000000000000000000000000000000000000000000000000000000000000000000000000000000000000000000000000000b6,
  0x10000000000000000000000000000000000000000000000000000000000000000000000000000000000000000000000000000000000000000000000000000000000000000b7],
    [0x100000000a7, 0x10000000000000000a8, 0x1000000000000000000000000a9, 0x100000000000000000000000000000000aa,
  0x10000000000000000000000000000000000000000ab, 0x1000000000000000000000000000000000000000000000000ac,
  0x100000000000000000000000000000000000000000000000000000000ad, 0x10000000000000000000000000000000000000000000000000000000000000000ae,
  0x1000000000000000000000000000000000000000000000000000000000000000000000000af,
  0x100000000000000000000000000000000000000000000000000000000000000000000000000000000b0,
  0x10000000000000000000000000000000000000000000000000000000000000000000000000000000000000000b1,
  0x1000000000000000000000000000000000000000000000000000000000000000000000000000000000000000000000000b2,
  0x100000000000000000000000000000000000000000000000000000000000000000000000000000000000000000000000000000000b3,
  0x10000000000000000000000000000000000000000000000000000000000000000000000000000000000000000000000000000000000000000b4,
  0x1000000000000000000000000000000000000000000000000000000000000000000000000000000000000000000000000000000000000000000000000b5,
  0x100000000000000000000000000000000000000000000000000000000000000000000000000000000000000000000000000000000000000000000000000000000b6,
  0x100000000b8, 0x10000000000000000b9, 0x1000000000000000000000000ba, 0x100000000000000000000000000000000bb,
  0x10000000000000000000000000000000000000000bc, 0x1000000000000000000000000000000000000000000000000bd,
  0x100000000000000000000000000000000000000000000000000000000be, 0x10000000000000000000000000000000000000000000000000000000000000000bf,
  0x1000000000000000000000000000000000000000000000000000000000000000000000000c0,
  0x100000000000000000000000000000000000000000000000000000000000000000000000000000000c1,
  0x10000000000000000000000000000000000000000000000000000000000000000000000000000000000000000c2,
  0x1000000000000000000000000000000000000000000000000000000000000000000000000000000000000000000000000c3,
  0x100000000000000000000000000000000000000000000000000000000000000000000000000000000000000000000000000000000c4,
  0x10000000000000000000000000000000000000000000000000000000000000000000000000000000000000000000000000000000000000000c5,
  0x1000000000000000000000000000000000000000000000000000000000000000000000000000000000000000000000000000000000000000000000000c6,
  0x100000000000000000000000000000000000000000000000000000000000000000000000000000000000000000000000000000000000000000000000000000000c7],
    [0x100000000b8, 0x10000000000000000b9, 0x1000000000000000000000000ba, 0x100000000000000000000000000000000bb,
  0x10000000000000000000000000000000000000000bc, 0x1000000000000000000000000000000000000000000000000bd,
  0x100000000000000000000000000000000000000000000000000000000be, 0x10000000000000000000000000000000000000000000000000000000000000000bf,
  0x1000000000000000000000000000000000000000000000000000000000000000000000000c0,
  0x100000000000000000000000000000000000000000000000000000000000000000000000000000000c1,
  0x10000000000000000000000000000000000000000000000000000000000000000000000000000000000000000c2,
  0x1000000000000000000000000000000000000000000000000000000000000000000000000000000000000000000000000c3,
  0x100000000000000000000000000000000000000000000000000000000000000000000000000000000000000000000000000000000c4,
  0x10000000000000000000000000000000000000000000000000000000000000000000000000000000000000000000000000000000000000000c5,
  0x1000000000000000000000000000000000000000000000000000000000000000000000000000000000000000000000000000000000000000000000000c6,
  0x100000000000000000000000000000000000000000000000000000000000000000000000000000000000000000000000000000000000000000000000000000000c7]⟩

theorem c5 : redChecks to_montgomery full [] k5 (lin true R2 W (argsA full.length)) R 4294967296 R p W W1 full full1 = true := by decide +kernel

def k6 : SubCert where
  ss := [1, 3, 5, 7, 9, 11, 13, 15, 17, 19, 21, 23, 25, 27, 29, 31]
  bf := 32
  chain := [0x10000000000, 0x1000000000000000001, 0x100000000000000000000000002, 0x10000000000000000000000000000000003,
  0x1000000000000000000000000000000000000000004, 0x100000000000000000000000000000000000000000000000005,
  0x10000000000000000000000000000000000000000000000000000000006, 0x1000000000000000000000000000000000000000000000000000000000000000007,
  0x100000000000000000000000000000000000000000000000000000000000000000000000008,
  0x10000000000000000000000000000000000000000000000000000000000000000000000000000000009,
  0x100000000000000000000000000000000000000000000000000000000000000000000000000000000000000000a,
  0x10000000000000000000000000000000000000000000000000000000000000000000000000000000000000000000000000b,
  0x1000000000000000000000000000000000000000000000000000000000000000000000000000000000000000000000000000000000c,
  0x100000000000000000000000000000000000000000000000000000000000000000000000000000000000000000000000000000000000000000d,
  0x10000000000000000000000000000000000000000000000000000000000000000000000000000000000000000000000000000000000000000000000000e,
  0x1000000000000000000000000000000000000000000000000000000000000000000000000000000000000000000000000000000000000000000000000000000000f]
  c0 := [0x10000000000, 0x1000000000000000001, 0x100000000000000000000000002, 0x10000000000000000000000000000000003,
  0x1000000000000000000000000000000000000000004, 0x100000000000000000000000000000000000000000000000005,
  0x10000000000000000000000000000000000000000000000000000000006, 0x1000000000000000000000000000000000000000000000000000000000000000007,
  0x100000000000000000000000000000000000000000000000000000000000000000000000008,
  0x10000000000000000000000000000000000000000000000000000000000000000000000000000000009,
  0x100000000000000000000000000000000000000000000000000000000000000000000000000000000000000000a,
  0x10000000000000000000000000000000000000000000000000000000000000000000000000000000000000000000000000b,
  0x1000000000000000000000000000000000000000000000000000000000000000000000000000000000000000000000000000000000c,
  0x100000000000000000000000000000000000000000000000000000000000000000000000000000000000000000000000000000000000000000d,
  0x10000000000000000000000000000000000000000000000000000000000000000000000000000000000000000000000000000000000000000000000000e,
  0x1000000000000000000000000000000000000000000000000000000000000000000000000000000000000000000000000000000000000000000000000000000000f,
  0x10000000011, 0x1000000000000000012, 0x100000000000000000000000013, 0x10000000000000000000000000000000014,
  0x1000000000000000000000000000000000000000015, 0x100000000000000000000000000000000000000000000000016,
  0x10000000000000000000000000000000000000000000000000000000017, 0x1000000000000000000000000000000000000000000000000000000000000000018,
  0x100000000000000000000000000000000000000000000000000000000000000000000000019,
  0x1000000000000000000000000000000000000000000000000000000000000000000000000000000001a,
  0x100000000000000000000000000000000000000000000000000000000000000000000000000000000000000001b,
  0x10000000000000000000000000000000000000000000000000000000000000000000000000000000000000000000000001c,
  0x1000000000000000000000000000000000000000000000000000000000000000000000000000000000000000000000000000000001d,
  0x100000000000000000000000000000000000000000000000000000000000000000000000000000000000000000000000000000000000000001e,
  0x10000000000000000000000000000000000000000000000000000000000000000000000000000000000000000000000000000000000000000000000001f,
  0x10000000000000000000000000000000000000000000000000000000000000000000000000000000000000000000000000000000000000000000000000000000020]
  c1 := [0x10000000000, 0x1000000000000000001, 0x100000000000000000000000002, 0x10000000000000000000000000000000003,
  0x1000000000000000000000000000000000000000004, 0x100000000000000000000000000000000000000000000000005,
  0x10000000000000000000000000000000000000000000000000000000006, 0x1000000000000000000000000000000000000000000000000000000000000000007,
  0x100000000000000000000000000000000000000000000000000000000000000000000000008,
  0x10000000000000000000000000000000000000000000000000000000000000000000000000000000009,
  0x100000000000000000000000000000000000000000000000000000000000000000000000000000000000000000a,
  0x10000000000000000000000000000000000000000000000000000000000000000000000000000000000000000000000000b,
  0x1000000000000000000000000000000000000000000000000000000000000000000000000000000000000000000000000000000000c,
  0x100000000000000000000000000000000000000000000000000000000000000000000000000000000000000000000000000000000000000000d,
  0x10000000000000000000000000000000000000000000000000000000000000000000000000000000000000000000000000000000000000000000000000e,
  0x1000000000000000000000000000000000000000000000000000000000000000000000000000000000000000000000000000000000000000000000000000000000f,
  0x10000000011, 0x1000000000000000012, 0x100000000000000000000000013, 0x10000000000000000000000000000000014,
  0x1000000000000000000000000000000000000000015, 0x100000000000000000000000000000000000000000000000016,
  0x10000000000000000000000000000000000000000000000000000000017, 0x1000000000000000000000000000000000000000000000000000000000000000018,
  0x100000000000000000000000000000000000000000000000000000000000000000000000019,
  0x1000000000000000000000000000000000000000000000000000000000000000000000000000000001a,
  0x100000000000000000000000000000000000000000000000000000000000000000000000000000000000000001b,
  0x10000000000000000000000000000000000000000000000000000000000000000000000000000000000000000000000001c,
  0x1000000000000000000000000000000000000000000000000000000000000000000000000000000000000000000000000000000001d,
  0x100000000000000000000000000000000000000000000000000000000000000000000000000000000000000000000000000000000000000001e,
  0x10000000000000000000000000000000000000000000000000000000000000000000000000000000000000000000000000000000000000000000000001f,
  0x10000000000000000000000000000000000000000000000000000000000000000000000000000000000000000000000000000000000000000000000000000000020]

theorem c6 : subChecks sub full full k6 (lin true 1 W (argsA full.length) ++ lin false 1 W (argsB full.length)) R p W full = true := by decide +kernel

def k7 : SubCert where
  ss := [1, 3, 5, 7, 9, 11, 13, 15, 17, 19, 21, 23, 25, 27, 29, 31]
  bf := 32
  chain := [0x10000000000, 0x1000000000000000001, 0x100000000000000000000000002, 0x10000000000000000000000000000000003,
  0x1000000000000000000000000000000000000000004, 0x100000000000000000000000000000000000000000000000005,
  0x10000000000000000000000000000000000000000000000000000000006, 0x1000000000000000000000000000000000000000000000000000000000000000007,
  0x100000000000000000000000000000000000000000000000000000000000000000000000008,
  0x10000000000000000000000000000000000000000000000000000000000000000000000000000000009,
  0x100000000000000000000000000000000000000000000000000000000000000000000000000000000000000000a,
  0x10000000000000000000000000000000000000000000000000000000000000000000000000000000000000000000000000b,
  0x1000000000000000000000000000000000000000000000000000000000000000000000000000000000000000000000000000000000c,
  0x100000000000000000000000000000000000000000000000000000000000000000000000000000000000000000000000000000000000000000d,
  0x10000000000000000000000000000000000000000000000000000000000000000000000000000000000000000000000000000000000000000000000000e,
  0x1000000000000000000000000000000000000000000000000000000000000000000000000000000000000000000000000000000000000000000000000000000000f]
  c0 := [0x10000000000, 0x1000000000000000001, 0x100000000000000000000000002, 0x10000000000000000000000000000000003,
  0x1000000000000000000000000000000000000000004, 0x100000000000000000000000000000000000000000000000005,
  0x10000000000000000000000000000000000000000000000000000000006, 0x1000000000000000000000000000000000000000000000000000000000000000007,
  0x100000000000000000000000000000000000000000000000000000000000000000000000008,
  0x10000000000000000000000000000000000000000000000000000000000000000000000000000000009,
  0x100000000000000000000000000000000000000000000000000000000000000000000000000000000000000000a,
  0x10000000000000000000000000000000000000000000000000000000000000000000000000000000000000000000000000b,
  0x1000000000000000000000000000000000000000000000000000000000000000000000000000000000000000000000000000000000c,
  0x100000000000000000000000000000000000000000000000000000000000000000000000000000000000000000000000000000000000000000d,
  0x10000000000000000000000000000000000000000000000000000000000000000000000000000000000000000000000000000000000000000000000000e,
  0x1000000000000000000000000000000000000000000000000000000000000000000000000000000000000000000000000000000000000000000000000000000000f,
  0x10000000011, 0x1000000000000000012, 0x100000000000000000000000013, 0x10000000000000000000000000000000014,
  0x1000000000000000000000000000000000000000015, 0x100000000000000000000000000000000000000000000000016,
  0x10000000000000000000000000000000000000000000000000000000017, 0x1000000000000000000000000000000000000000000000000000000000000000018,
  0x100000000000000000000000000000000000000000000000000000000000000000000000019,
  0x1000000000000000000000000000000000000000000000000000000000000000000000000000000001a,
  0x100000000000000000000000000000000000000000000000000000000000000000000000000000000000000001b,
  0x10000000000000000000000000000000000000000000000000000000000000000000000000000000000000000000000001c,
  0x1000000000000000000000000000000000000000000000000000000000000000000000000000000000000000000000000000000001d,
  0x100000000000000000000000000000000000000000000000000000000000000000000000000000000000000000000000000000000000000001e,
  0x10000000000000000000000000000000000000000000000000000000000000000000000000000000000000000000000000000000000000000000000001f,
  0x10000000000000000000000000000000000000000000000000000000000000000000000000000000000000000000000000000000000000000000000000000000020]
  c1 := [0x10000000000, 0x1000000000000000001, 0x100000000000000000000000002, 0x10000000000000000000000000000000003,
  0x1000000000000000000000000000000000000000004, 0x100000000000000000000000000000000000000000000000005,
  0x10000000000000000000000000000000000000000000000000000000006, 0x1000000000000000000000000000000000000000000000000000000000000000007,
  0x100000000000000000000000000000000000000000000000000000000000000000000000008,
  0x10000000000000000000000000000000000000000000000000000000000000000000000000000000009,
  0x100000000000000000000000000000000000000000000000000000000000000000000000000000000000000000a,
  0x10000000000000000000000000000000000000000000000000000000000000000000000000000000000000000000000000b,
  0x1000000000000000000000000000000000000000000000000000000000000000000000000000000000000000000000000000000000c,
  0x100000000000000000000000000000000000000000000000000000000000000000000000000000000000000000000000000000000000000000d,
  0x10000000000000000000000000000000000000000000000000000000000000000000000000000000000000000000000000000000000000000000000000e,
  0x1000000000000000000000000000000000000000000000000000000000000000000000000000000000000000000000000000000000000000000000000000000000f,
  0x10000000011, 0x1000000000000000012, 0x100000000000000000000000013, 0x10000000000000000000000000000000014,
  0x1000000000000000000000000000000000000000015, 0x100000000000000000000000000000000000000000000000016,
  0x10000000000000000000000000000000000000000000000000000000017, 0x1000000000000000000000000000000000000000000000000000000000000000018,
  0x100000000000000000000000000000000000000000000000000000000000000000000000019,
  0x1000000000000000000000000000000000000000000000000000000000000000000000000000000001a,
  0x100000000000000000000000000000000000000000000000000000000000000000000000000000000000000001b,
  0x10000000000000000000000000000000000000000000000000000000000000000000000000000000000000000000000001c,
  0x1000000000000000000000000000000000000000000000000000000000000000000000000000000000000000000000000000000001d,
  0x100000000000000000000000000000000000000000000000000000000000000000000000000000000000000000000000000000000000000001e,
  0x10000000000000000000000000000000000000000000000000000000000000000000000000000000000000000000000000000000000000000000000001f,
  0x10000000000000000000000000000000000000000000000000000000000000000000000000000000000000000000000000000000000000000000000000000000020]

theorem c7 : subChecks opp full [] k7 (lin false 1 W (argsA full.length)) R p W full = true := by decide +kernel

def k8 : List Nat :=
  [0x10000000000000000000000000000000000000000000000000000000000000000000000000000000000000000000000000000000000000000000000000000000000,
  0x10000000000000000000000000000000000000000000000000000000000000000000000000000000000000000000000000000000000000000000000000000000001,
  0x10000000000000000000000000000000000000000000000000000000000000000000000000000000000000000000000000000000000000000000000000000000002,
  0x10000000000000000000000000000000000000000000000000000000000000000000000000000000000000000000000000000000000000000000000000000000003,
  0x100000000000000000000000000000000000000000000000000000000000000000000000000000000000000000000000000000000000000000000000004,
  0x100000000000000000000000000000000000000000000000000000000000000000000000000000000000000000000000000000000000000000000000005,
  0x100000000000000000000000000000000000000000000000000000000000000000000000000000000000000000000000000000000000000000000000006,
  0x100000000000000000000000000000000000000000000000000000000000000000000000000000000000000000000000000000000000000000000000007,
  0x1000000000000000000000000000000000000000000000000000000000000000000000000000000000000000000000000000000000000000008,
  0x1000000000000000000000000000000000000000000000000000000000000000000000000000000000000000000000000000000000000000009,
  0x100000000000000000000000000000000000000000000000000000000000000000000000000000000000000000000000000000000000000000a,
  0x100000000000000000000000000000000000000000000000000000000000000000000000000000000000000000000000000000000000000000b,
  0x1000000000000000000000000000000000000000000000000000000000000000000000000000000000000000000000000000000000c,
  0x1000000000000000000000000000000000000000000000000000000000000000000000000000000000000000000000000000000000d,
  0x1000000000000000000000000000000000000000000000000000000000000000000000000000000000000000000000000000000000e,
  0x1000000000000000000000000000000000000000000000000000000000000000000000000000000000000000000000000000000000f,
  0x100000000000000000000000000000000000000000000000000000000000000000000000000000000000000000000000010,
  0x100000000000000000000000000000000000000000000000000000000000000000000000000000000000000000000000011,
  0x100000000000000000000000000000000000000000000000000000000000000000000000000000000000000000000000012,
  0x100000000000000000000000000000000000000000000000000000000000000000000000000000000000000000000000013,
  0x1000000000000000000000000000000000000000000000000000000000000000000000000000000000000000014,
  0x1000000000000000000000000000000000000000000000000000000000000000000000000000000000000000015,
  0x1000000000000000000000000000000000000000000000000000000000000000000000000000000000000000016,
  0x1000000000000000000000000000000000000000000000000000000000000000000000000000000000000000017,
  0x10000000000000000000000000000000000000000000000000000000000000000000000000000000018,
  0x10000000000000000000000000000000000000000000000000000000000000000000000000000000019,
  0x1000000000000000000000000000000000000000000000000000000000000000000000000000000001a,
  0x1000000000000000000000000000000000000000000000000000000000000000000000000000000001b,
  0x10000000000000000000000000000000000000000000000000000000000000000000000001c,
  0x10000000000000000000000000000000000000000000000000000000000000000000000001d,
  0x10000000000000000000000000000000000000000000000000000000000000000000000001e,
  0x10000000000000000000000000000000000000000000000000000000000000000000000001f,
  0x1000000000000000000000000000000000000000000000000000000000000000020,
  0x1000000000000000000000000000000000000000000000000000000000000000021,
  0x1000000000000000000000000000000000000000000000000000000000000000022,
  0x1000000000000000000000000000000000000000000000000000000000000000023, 0x10000000000000000000000000000000000000000000000000000000024,
  0x10000000000000000000000000000000000000000000000000000000025, 0x10000000000000000000000000000000000000000000000000000000026,
  0x10000000000000000000000000000000000000000000000000000000027, 0x100000000000000000000000000000000000000000000000028,
  0x100000000000000000000000000000000000000000000000029, 0x10000000000000000000000000000000000000000000000002a,
  0x10000000000000000000000000000000000000000000000002b, 0x100000000000000000000000000000000000000002c,
  0x100000000000000000000000000000000000000002d, 0x100000000000000000000000000000000000000002e,
  0x100000000000000000000000000000000000000002f, 0x10000000000000000000000000000000030, 0x10000000000000000000000000000000031,
  0x10000000000000000000000000000000032, 0x10000000000000000000000000000000033, 0x100000000000000000000000034, 0x100000000000000000000000035,
  0x100000000000000000000000036, 0x100000000000000000000000037, 0x1000000000000000038, 0x1000000000000000039, 0x100000000000000003a,
  0x100000000000000003b, 0x1000000003c, 0x1000000003d, 0x1000000003e, 0x1000000003f, 0x10000000040, 0x10000000041, 0x10000000042,
  0x1000000000000000043, 0x1000000000000000044, 0x1000000000000000045, 0x100000000000000000000000046, 0x100000000000000000000000047,
  0x100000000000000000000000048, 0x10000000000000000000000000000000049, 0x1000000000000000000000000000000004a,
  0x1000000000000000000000000000000004b, 0x100000000000000000000000000000000000000004c, 0x100000000000000000000000000000000000000004d,
  0x100000000000000000000000000000000000000004e, 0x10000000000000000000000000000000000000000000000004f,
  0x100000000000000000000000000000000000000000000000050, 0x100000000000000000000000000000000000000000000000051,
  0x10000000000000000000000000000000000000000000000000000000052, 0x10000000000000000000000000000000000000000000000000000000053,
  0x10000000000000000000000000000000000000000000000000000000054, 0x1000000000000000000000000000000000000000000000000000000000000000055,
  0x1000000000000000000000000000000000000000000000000000000000000000056,
  0x1000000000000000000000000000000000000000000000000000000000000000057,
  0x100000000000000000000000000000000000000000000000000000000000000000000000058,
  0x100000000000000000000000000000000000000000000000000000000000000000000000059,
  0x10000000000000000000000000000000000000000000000000000000000000000000000005a,
  0x1000000000000000000000000000000000000000000000000000000000000000000000000000000005b,
  0x1000000000000000000000000000000000000000000000000000000000000000000000000000000005c,
  0x1000000000000000000000000000000000000000000000000000000000000000000000000000000005d,
  0x100000000000000000000000000000000000000000000000000000000000000000000000000000000000000005e,
  0x100000000000000000000000000000000000000000000000000000000000000000000000000000000000000005f,
  0x1000000000000000000000000000000000000000000000000000000000000000000000000000000000000000060,
  0x100000000000000000000000000000000000000000000000000000000000000000000000000000000000000000000000061,
  0x100000000000000000000000000000000000000000000000000000000000000000000000000000000000000000000000062,
  0x100000000000000000000000000000000000000000000000000000000000000000000000000000000000000000000000063,
  0x10000000000000000000000000000000000000000000000000000000000000000000000000000000000000000000000000000000064,
  0x10000000000000000000000000000000000000000000000000000000000000000000000000000000000000000000000000000000065,
  0x10000000000000000000000000000000000000000000000000000000000000000000000000000000000000000000000000000000066,
  0x1000000000000000000000000000000000000000000000000000000000000000000000000000000000000000000000000000000000000000067,
  0x1000000000000000000000000000000000000000000000000000000000000000000000000000000000000000000000000000000000000000068,
  0x1000000000000000000000000000000000000000000000000000000000000000000000000000000000000000000000000000000000000000069,
  0x10000000000000000000000000000000000000000000000000000000000000000000000000000000000000000000000000000000000000000000000006a,
  0x10000000000000000000000000000000000000000000000000000000000000000000000000000000000000000000000000000000000000000000000006b,
  0x10000000000000000000000000000000000000000000000000000000000000000000000000000000000000000000000000000000000000000000000006c,
  0x1000000000000000000000000000000000000000000000000000000000000000000000000000000000000000000000000000000000000000000000000000000006d,
  0x1000000000000000000000000000000000000000000000000000000000000000000000000000000000000000000000000000000000000000000000000000000006e,
  0x1000000000000000000000000000000000000000000000000000000000000000000000000000000000000000000000000000000000000000000000000000000006f]

theorem c8 : check [] from_bytes (List.replicate 64 255) [] k8 (lin false 1 W (vars from_bytes.out) ++ lin true 1 (byteW 64) (argsA (List.replicate 64 255).length)) 0 from_bytes.out full = true := by decide +kernel

def k9 : List Nat :=
  [0x10000000000000000000000000000000000000000000000000000000000000000000000000000000000000000000000000000000000000000000000000000000000,
  0x100000000000000000000000000000000000000000000000000000000000000000000000000000000000000000000000000000000000000000000000001,
  0x1000000000000000000000000000000000000000000000000000000000000000000000000000000000000000000000000000000000000000002,
  0x10000000000000000000000000000000000000000000000000000000000000000000000000000000000000000000000000000000003,
  0x100000000000000000000000000000000000000000000000000000000000000000000000000000000000000000000000004,
  0x1000000000000000000000000000000000000000000000000000000000000000000000000000000000000000005,
  0x10000000000000000000000000000000000000000000000000000000000000000000000000000000006,
  0x100000000000000000000000000000000000000000000000000000000000000000000000007,
  0x1000000000000000000000000000000000000000000000000000000000000000008, 0x10000000000000000000000000000000000000000000000000000000009,
  0x10000000000000000000000000000000000000000000000000a, 0x100000000000000000000000000000000000000000b,
  0x1000000000000000000000000000000000c, 0x10000000000000000000000000d, 0x100000000000000000e, 0x1000000000f, 0x10000000010, 0x1000000000011,
  0x1000000000012, 0x100000000000013, 0x100000000000014, 0x10000000000000015, 0x1000000000000000016, 0x100000000000000000017,
  0x100000000000000000018, 0x10000000000000000000019, 0x1000000000000000000001a, 0x100000000000000000000001b, 0x10000000000000000000000001c,
  0x1000000000000000000000000001d, 0x1000000000000000000000000001e, 0x100000000000000000000000000001f, 0x1000000000000000000000000000020,
  0x100000000000000000000000000000021, 0x10000000000000000000000000000000022, 0x1000000000000000000000000000000000023,
  0x1000000000000000000000000000000000024, 0x100000000000000000000000000000000000025, 0x100000000000000000000000000000000000026,
  0x10000000000000000000000000000000000000027, 0x1000000000000000000000000000000000000000028,
  0x100000000000000000000000000000000000000000029, 0x10000000000000000000000000000000000000000002a,
  0x1000000000000000000000000000000000000000000002b, 0x1000000000000000000000000000000000000000000002c,
  0x100000000000000000000000000000000000000000000002d, 0x10000000000000000000000000000000000000000000000002e,
  0x1000000000000000000000000000000000000000000000000002f, 0x10000000000000000000000000000000000000000000000000030,
  0x1000000000000000000000000000000000000000000000000000031, 0x1000000000000000000000000000000000000000000000000000032,
  0x100000000000000000000000000000000000000000000000000000033, 0x10000000000000000000000000000000000000000000000000000000034,
  0x1000000000000000000000000000000000000000000000000000000000035, 0x1000000000000000000000000000000000000000000000000000000000036,
  0x100000000000000000000000000000000000000000000000000000000000037, 0x100000000000000000000000000000000000000000000000000000000000038,
  0x10000000000000000000000000000000000000000000000000000000000000039, 0x100000000000000000000000000000000000000000000000000000000000000003a,
  0x10000000000000000000000000000000000000000000000000000000000000000003b,
  0x10000000000000000000000000000000000000000000000000000000000000000003c,
  0x1000000000000000000000000000000000000000000000000000000000000000000003d,
  0x1000000000000000000000000000000000000000000000000000000000000000000003e,
  0x100000000000000000000000000000000000000000000000000000000000000000000003f,
  0x100000000000000000000000000000000000000000000000000000000000000000000000040,
  0x10000000000000000000000000000000000000000000000000000000000000000000000000041,
  0x10000000000000000000000000000000000000000000000000000000000000000000000000042,
  0x1000000000000000000000000000000000000000000000000000000000000000000000000000043,
  0x1000000000000000000000000000000000000000000000000000000000000000000000000000044,
  0x100000000000000000000000000000000000000000000000000000000000000000000000000000045,
  0x10000000000000000000000000000000000000000000000000000000000000000000000000000000046,
  0x1000000000000000000000000000000000000000000000000000000000000000000000000000000000047,
  0x1000000000000000000000000000000000000000000000000000000000000000000000000000000000048,
  0x100000000000000000000000000000000000000000000000000000000000000000000000000000000000049,
  0x10000000000000000000000000000000000000000000000000000000000000000000000000000000000004a,
  0x1000000000000000000000000000000000000000000000000000000000000000000000000000000000000004b,
  0x100000000000000000000000000000000000000000000000000000000000000000000000000000000000000004c,
  0x10000000000000000000000000000000000000000000000000000000000000000000000000000000000000000004d,
  0x10000000000000000000000000000000000000000000000000000000000000000000000000000000000000000004e,
  0x1000000000000000000000000000000000000000000000000000000000000000000000000000000000000000000004f,
  0x10000000000000000000000000000000000000000000000000000000000000000000000000000000000000000000050,
  0x1000000000000000000000000000000000000000000000000000000000000000000000000000000000000000000000051,
  0x100000000000000000000000000000000000000000000000000000000000000000000000000000000000000000000000052,
  0x10000000000000000000000000000000000000000000000000000000000000000000000000000000000000000000000000053,
  0x10000000000000000000000000000000000000000000000000000000000000000000000000000000000000000000000000054,
  0x1000000000000000000000000000000000000000000000000000000000000000000000000000000000000000000000000000055,
  0x1000000000000000000000000000000000000000000000000000000000000000000000000000000000000000000000000000056,
  0x100000000000000000000000000000000000000000000000000000000000000000000000000000000000000000000000000000057,
  0x10000000000000000000000000000000000000000000000000000000000000000000000000000000000000000000000000000000058,
  0x1000000000000000000000000000000000000000000000000000000000000000000000000000000000000000000000000000000000059,
  0x100000000000000000000000000000000000000000000000000000000000000000000000000000000000000000000000000000000005a,
  0x10000000000000000000000000000000000000000000000000000000000000000000000000000000000000000000000000000000000005b,
  0x10000000000000000000000000000000000000000000000000000000000000000000000000000000000000000000000000000000000005c,
  0x1000000000000000000000000000000000000000000000000000000000000000000000000000000000000000000000000000000000000005d,
  0x100000000000000000000000000000000000000000000000000000000000000000000000000000000000000000000000000000000000000005e,
  0x10000000000000000000000000000000000000000000000000000000000000000000000000000000000000000000000000000000000000000005f,
  0x100000000000000000000000000000000000000000000000000000000000000000000000000000000000000000000000000000000000000000060,
  0x10000000000000000000000000000000000000000000000000000000000000000000000000000000000000000000000000000000000000000000061,
  0x10000000000000000000000000000000000000000000000000000000000000000000000000000000000000000000000000000000000000000000062,
  0x1000000000000000000000000000000000000000000000000000000000000000000000000000000000000000000000000000000000000000000000063,
  0x100000000000000000000000000000000000000000000000000000000000000000000000000000000000000000000000000000000000000000000000064,
  0x10000000000000000000000000000000000000000000000000000000000000000000000000000000000000000000000000000000000000000000000000065,
  0x10000000000000000000000000000000000000000000000000000000000000000000000000000000000000000000000000000000000000000000000000066,
  0x1000000000000000000000000000000000000000000000000000000000000000000000000000000000000000000000000000000000000000000000000000067,
  0x1000000000000000000000000000000000000000000000000000000000000000000000000000000000000000000000000000000000000000000000000000068,
  0x100000000000000000000000000000000000000000000000000000000000000000000000000000000000000000000000000000000000000000000000000000069,
  0x1000000000000000000000000000000000000000000000000000000000000000000000000000000000000000000000000000000000000000000000000000000006a,
  0x100000000000000000000000000000000000000000000000000000000000000000000000000000000000000000000000000000000000000000000000000000000006b,
  0x100000000000000000000000000000000000000000000000000000000000000000000000000000000000000000000000000000000000000000000000000000000006c,
  0x10000000000000000000000000000000000000000000000000000000000000000000000000000000000000000000000000000000000000000000000000000000000006d,
  0x10000000000000000000000000000000000000000000000000000000000000000000000000000000000000000000000000000000000000000000000000000000000006e,
  0x1000000000000000000000000000000000000000000000000000000000000000000000000000000000000000000000000000000000000000000000000000000000000006f]

theorem c9 : check [] to_bytes full [] k9 (lin false 1 (byteW 64) (vars to_bytes.out) ++ lin true 1 W (argsA full.length)) 0 to_bytes.out (List.replicate 64 255) = true := by decide +kernel

/-- The field operations of the file, on words standing for numbers less than `p` in Montgomery form, are those modulo `p`. -/
theorem field_sound [Fact (Nat.Prime p)] : file.ops.Sound p 64 (montOk p W full) (montVal p R W) :=
  FiatMont.sound_of_checks (w := 4294967296) (R2 := R2) (W1 := W1) (full1 := full1) (K1 := k1) (K2 := k2) (K3 := k3) (K4 := k4) (K5 := k5) (J1 := k6) (J2 := k7)
    c1 c2 c3 c4 c5 c6 c7 c8 c9 (by decide +kernel) (by decide +kernel) (by decide +kernel) (by decide +kernel) (by decide +kernel) (by decide +kernel) (by decide +kernel) (by decide +kernel) (by decide +kernel) ⟨rfl, rfl, rfl, rfl, rfl, rfl, rfl⟩
    ⟨(by decide +kernel), (by decide +kernel), rfl, (by decide +kernel), (by decide +kernel)⟩ (by decide +kernel) (by decide +kernel) (by decide +kernel) (by decide +kernel)

end Gost.Ecp_tc26_512_paramSetB_32
