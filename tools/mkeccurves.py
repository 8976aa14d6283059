#!/usr/bin/env python3
"""Generate lean/Verif/Lemmas/EcCurves.lean: the kernel-checked facts about the nine built-in curves."""
import sys; sys.path.insert(0, '/verif/tools')
from ecconsts import rows, witness, D
Q = {'ec_Test': 'prime_q_test', 'ec_CryptoPro_A': 'prime_q_cpa', 'ec_CryptoPro_B': 'prime_q_cpb', 'ec_CryptoPro_C': 'prime_q_cpc',
     'ec_tc26_256_paramSetA': 'prime_q_256a', 'ec_tc26_512_paramSetTest': 'prime_q_512t', 'ec_tc26_512_paramSetA': 'prime_q_512a',
     'ec_tc26_512_paramSetB': 'prime_q_512b', 'ec_tc26_512_paramSetC': 'prime_q_512c'}
HDR = ["import Verif.Lemmas.EcOrder", "import Verif.Lemmas.EcFacts", "import Verif.Lemmas.PrimesNNN", "import Verif.Model.EcParams", "",
       "/-!", "# The built-in curves satisfy the conditions of the standard", "",
       "Generated by `tools/mkeccurves.py`.", "-/", "", "namespace Gost", "", "open Spec (GostCurve)", ""]
def gen(mod, prm, sel):
  out = [l.replace('PrimesNNN', prm) for l in HDR]
  for n, q in sel:
      r = rows[n]
      bits = r['q'].bit_length(); pb = r['p'].bit_length()
      s = n[3:]
      out.append(f"theorem check_{s} : ecCheck {n}.p {n}.a {n}.b {n}.x {n}.y {n}.q {bits} {2*pb} = true := by decide +kernel")
      out.append("")
      out.append(f"theorem prime_p_{s} : {n}.p.Prime :=")
      out.append(f"  ecpp {n}.a {n}.b {n}.x {n}.y {n}.q {bits} {2*pb} {q} (by decide +kernel) check_{s}")
      out.append("")
      if r['cofactor'] == 1:
          v = witness(r['p'], r['a'], r['b'])
          out.append(f"theorem noRoot_{s} : noRootCheck {n}.p {n}.a {n}.b {pb} (0x{v[0]:X}, 0x{v[1]:X}, 0x{v[2]:X}) = true := by decide +kernel")
          out.append("")
          out.append(f"theorem gostCurve_{s} : GostCurve {n}.p {n}.a {n}.b {n}.q {n}.x {n}.y {n}.cofactor :=")
          out.append(f"  gostCurve_of_noRoot prime_p_{s} {q} check_{s} noRoot_{s} (by decide +kernel)")
      else:
          d = D[n]; p = r['p']; S = (1 - d) * pow(4, -1, p) % p; T = (1 + d) * pow(6, -1, p) % p
          out.append(f"theorem edwards_{s} : edCheck {n}.p {n}.a {n}.b {pb} 0x{S:X} 0x{T:X} 0x{d:X} = true := by decide +kernel")
          out.append("")
          out.append(f"theorem gostCurve_{s} : GostCurve {n}.p {n}.a {n}.b {n}.q {n}.x {n}.y {n}.cofactor :=")
          out.append(f"  gostCurve_of_edwards prime_p_{s} {q} check_{s} edwards_{s} (by decide +kernel)")
      out.append("")
  out.append("end Gost")
  open(f'/verif/lean/Verif/Lemmas/{mod}.lean', 'w').write('\n'.join(out) + '\n')
it = list(Q.items())
gen('EcCurves256', 'Primes256', it[:5])
# one after the other, to keep the memory of a parallel build low
gen('EcCurves512t', 'Primes512', it[5:6])
gen('EcCurves512', 'EcCurves512t', it[6:7])
gen('EcCurves512b', 'EcCurves512', it[7:8])
gen('EcCurves512c', 'EcCurves512b', it[8:])
