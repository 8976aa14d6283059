#!/usr/bin/env python3
"""Generate lean/Verif/Lemmas/Primes*.lean (Pocklington certificates) from the JSON files given:
mkprimes.py module name=file ..."""
import json, sys
mod = sys.argv[1]
cert = {}
names = {}
for arg in sys.argv[2:]:
    name, fn = arg.split("=")
    d = json.load(open("/verif/tools/certs/" + fn))
    tops = [int(k) for k in d]
    names[max(tops)] = name
    for k, v in d.items():
        cert[int(k)] = v
out = ["import Verif.Lemmas.EcCompute", "import Verif.Lemmas.Pocklington", "import Mathlib.Tactic.NormNum.Prime", "", "/-!", "# Primality certificates",
       "", "Generated by `tools/mkprimes.py`: chains of Pocklington and elliptic curve certificates, checked by the kernel.", "-/", "",
       "namespace Gost", "", f"namespace {mod}", ""]
done = set()
def emit(n):
    if n in done: return
    done.add(n)
    v = cert[n]
    if v is None:
        out.append(f"theorem prime_{n} : Nat.Prime {n} := by norm_num"); out.append(""); return
    if v[0] == "ec":
        q = int(v[1]); emit(q)
        a, b, x, y = v[2]
        bl = n.bit_length()
        out.append(f"theorem prime_{n} : Nat.Prime {n} :=")
        out.append(f"  ecpp {a} {b} {x} {y} {q} {q.bit_length()} {2 * bl} prime_{q} (by decide +kernel) (by decide +kernel)")
        out.append(""); return
    if v[0] == "poc": v = v[1]
    for q, a, w in v: emit(int(q))
    steps = ", ".join(f"⟨{q}, {a}, {w}⟩" for q, a, w in v)
    out.append(f"theorem prime_{n} : Nat.Prime {n} := by")
    out.append(f"  refine pocklington [{steps}] {n.bit_length()} ?_ (by decide +kernel)")
    pr = ", ".join(f"prime_{q}" for q, a, w in v)
    out.append(f"  simp only [List.mem_cons, List.not_mem_nil, or_false, forall_eq_or_imp, forall_eq]")
    if len(v) == 1: out.append(f"  exact prime_{v[0][0]}")
    else: out.append(f"  exact ⟨{pr}⟩")
    out.append("")
for n in sorted(names): emit(n)
out.append(f"end {mod}"); out.append("")
for n, name in sorted(names.items()):
    out.append(f"theorem {name} : Nat.Prime 0x{n:X} := {mod}.prime_{n}")
    out.append("")
out.append("end Gost")
open(f"/verif/lean/Verif/Lemmas/{mod}.lean", "w").write("\n".join(out) + "\n")
