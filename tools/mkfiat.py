"""Generates lean/Verif/Model/Ecp/<curve>.lean (the functions, constants and tables of a curve file, translated statement by
statement) and lean/Verif/Lemmas/Ecp/<curve>.lean (certificates for the checker of lean/Verif/Lemmas/FiatCert.lean)."""
import sys, os, re
from math import ceil
from fractions import Fraction
from fiatcert import *
from ecpdata import *

ROOT = os.path.join(os.path.dirname(os.path.abspath(__file__)), '..', 'lean', 'Verif')
def ex(e):
    t = e[0]
    if t in 'abx': return f'.{t} {e[1]}'
    if t == 'c': return f'.c {num(e[1])}'
    if t in ('add', 'sub', 'mul'): return f'.{t} {e[1]} ({ex(e[2])}) ({ex(e[3])})'
    if t == 'shr': return f'.shr ({ex(e[1])}) {e[2]}'
    if t == 'shl': return f'.shl {e[1]} ({ex(e[2])}) {e[3]}'
    if t == 'and': return f'.and ({ex(e[1])}) ({ex(e[2])})'
    if t == 'cast': return f'.cast {e[1]} ({ex(e[2])})'
    raise Exception(e)
def num(n): return hex(n) if n > 99 else str(n)
def nums(l): return '[' + ', '.join(num(x) for x in l) + ']'
def st(s, half):
    if s[0] == 'set': return f'.set ({ex(s[2])})'
    if s[0] in ('adc', 'sbb'):
        h = 2 * half if s[1] == half else half
        return f'.{s[0]} {h} {s[1]} ' + ' '.join(f'({ex(e)})' for e in s[4:])
    if s[0] == 'mulx': return f'.mulx {s[1]} ' + ' '.join(f'({ex(e)})' for e in s[4:])
    return f'.cmov {s[1]} ' + ' '.join(f'({ex(e)})' for e in s[3:])
def prog(P, half):
    rows, cur = [], '  '
    for i, s in enumerate(P['code']):
        t = st(s, half) + (',' if i + 1 < len(P['code']) else ']')
        if len(cur) + len(t) > 140: rows.append(cur.rstrip()); cur = '  '
        cur += t + ' '
    rows.append(cur.rstrip())
    return '⟨[\n' + '\n'.join(rows) + ', [' + ', '.join(map(str, P['out'])) + ']⟩'
def certl(c):
    out = []
    for i, k, cof, v in c:
        assert i < 2**16 and cof < 2**20
        out.append(hex(i + (k << 16) + ((1 if v < 0 else 0) << 18) + (cof << 20) + (abs(v) << 40)))
    rows, cur = [], ''
    for t in out:
        if len(cur) + len(t) > 140: rows.append(cur.rstrip()); cur = '  '
        cur += t + ', '
    rows.append(cur.rstrip().rstrip(','))
    return '[' + '\n'.join(rows) + ']'

def wts(L, bits): return [ceil(Fraction(bits * i, L)) for i in range(L)]
def lin(vs, ws, c=1): return [(c * w, v) for v, w in zip(vs, ws)]
def args(L, t='a'): return [(t, i) for i in range(L)]
def prod(L, ws, sq=False, c=1): return [(c * ws[i] * ws[j], ('mul', 0, ('a', i), ('a' if sq else 'b', j))) for i in range(L) for j in range(L)]
def bnd(Bs, a='a'): return {(a, i): (0, b) for i, b in enumerate(Bs)}
def xs(l): return [('x', n) for n in l]
def used(P):
    s = set()
    def go(e):
        if e[0] == 'x': s.add(e[1])
        for t in e[1:]:
            if isinstance(t, tuple): go(t)
    for q in P['code']:
        for t in q[1:]:
            if isinstance(t, tuple): go(t)
    return s | set(P['out'])

SOL = ['carry_mul', 'carry_square', 'carry', 'add', 'sub', 'opp', 'from_bytes', 'to_bytes']
MONT = ['mul', 'square', 'add', 'sub', 'opp', 'from_montgomery', 'to_montgomery', 'from_bytes', 'to_bytes']

class Curve:
    def __init__(self, c, half):
        self.c, self.half = c, half
        self.bits = 512 if '512' in c else 256; self.nb = self.bits // 8
        self.row = rows['ec_' + c]; self.p = self.row['p']
        self.F = funcs(c, half); self.mont = 'carry_mul' not in self.F
        self.C = consts(c, half); self.L = len(self.C['const_one'][2])
        self.ed = 'const_S' in self.C
        self.name = 'Ecp_' + c + ('' if half == 64 else '_32')
        self.file = c + ('' if half == 64 else '_32')
        L = self.L
        if self.mont:
            self.W = [2**(half * i) for i in range(L)]
        else:
            e = wts(L, self.bits); self.W = [2**x for x in e]
            self.size = [(e[i + 1] if i + 1 < L else self.bits) - e[i] for i in range(L)]
            self.tight = [2**s for s in self.size]
            self.bal = [s[2][2][1] for s in self.g('opp')['code']]
            assert len(self.bal) == L
            self.wide = [2 * b for b in self.bal]
    def g(self, n): return parse(self.c, n, self.half, self.F)

def model(K):
    c, half = K.c, K.half
    fn = FILES[c][0]
    o = []
    o.append('import Verif.Model.FiatField\n')
    o.append(f'''/-!
# The functions, constants and table of `/repo/{fn}`

{"64" if half == 64 else "32"} bit version of the file (`__SIZEOF_INT128__` is {"defined" if half == 64 else "not defined"}).  Generated by `tools/mkfiat.py`, statement by statement;
see `Verif/Model/Fiat.lean` for the meaning.  All line numbers refer to this file.
-/

namespace Gost.{K.name}

set_option maxRecDepth 100000
''')
    for n in (MONT if K.mont else SOL):
        a, b = K.F[n][:2]
        o.append(f'/-- `fiat_{FILES[c][1]}_{n}`, lines {a}-{b}. -/\ndef {n} : CProg := {prog(K.g(n), half)}\n')
    a, b, arg, ch = inv(c, half)
    reg = {arg: 0, 'output': 0}
    for s in ch:
        for v in s[1:-1]:
            if v not in reg: reg[v] = max(reg.values()) + 1
    assert max(reg.values()) < 32
    # argument and result are the same variable: the argument must not be read after the result is set
    seen = False
    for s in ch:
        assert not (seen and arg in s[2:-1])
        if s[1] == 'output': seen = True
    # loops of multiplications are written out
    st_ = [t for s in ch for t in ([f'.mul {reg[s[1]]} {reg[s[2]]} {reg[s[3]]}'] * s[-1] if s[0] == 'mul' else [f'.sq {reg[s[1]]} {reg[s[2]]} {s[3]}'])]
    for s in ch: assert s[0] == 'mul' or s[-1] == 1 or s[1] == s[2]
    names = ', '.join(f'{v} = {k}' for k, v in sorted(reg.items(), key=lambda t: t[1]))
    lp = '; a loop of multiplications is written out' if any(s[0] == 'mul' and s[-1] > 1 for s in ch) else ''
    o.append(f'/-- `fiat_{FILES[c][1]}_inv`, lines {a}-{b}; the variables are {names}{lp}. -/\ndef inv : List InvStep := [' +
             ',\n  '.join(', '.join(st_[i:i + 10]) for i in range(0, len(st_), 10)) + ']\n')
    z = [0] * K.L
    cs = {}
    cit = []
    for n in ('one', 'a', 'b', 'b3', 'd', 'S', 'T'):
        if 'const_' + n in K.C: cs[n] = K.C['const_' + n][2]; cit.append(f'`const_{n}` {K.C["const_" + n][0]}-{K.C["const_" + n][1]}')
        else: cs[n] = z
    o.append(f'/-- The constants, lines: {", ".join(cit)}; the file has no others. -/\ndef consts : FiatConsts where\n' + '\n'.join(f'  {n} := {nums(v)}' for n, v in cs.items()) + '\n')
    fs = MONT if K.mont else SOL
    ty = 'FiatMont' if K.mont else 'FiatSol'
    o.append(f'/-- The functions of the file. -/\ndef file : {ty} where\n' + '\n'.join(f'  {n} := {n}' for n in fs) + f'\n  inv := inv\n  limbs := {K.L}\n  consts := consts\n')
    a, b, tab = lut(c, half)
    A = 'AffE' if K.ed else 'AffW'
    o.append(f'/-- `lut_cmb`, lines {a}-{b}. -/\ndef lut_data : List (List ({A} (List Nat))) := [\n' +
             ',\n'.join('  [' + ',\n   '.join('⟨' + ', '.join(nums(v) for v in ent) + '⟩' for ent in row) + ']' for row in tab) + ']\n')
    zz = ', '.join(['[]'] * (3 if K.ed else 2))
    o.append(f'/-- `lut_cmb[j][k]`. -/\ndef lut_cmb (j k : Nat) : {A} (List Nat) := (lut_data.getD j []).getD k ⟨{zz}⟩\n')
    r, co = shape(c, half)
    assert r == len(tab), (r, len(tab))
    o.append(f'end Gost.{K.name}')
    return '\n'.join(o) + '\n'

def lemmas(K):
    c, half, p, L, nb, W = K.c, K.half, K.p, K.L, K.nb, K.W
    o = [f'import Verif.Model.Ecp.{K.file}', 'import Verif.Lemmas.FiatField', 'import Verif.Model.EcParams\n',
         f'/-!\n# The field arithmetic of `/repo/{FILES[c][0]}`, {half} bit version\n\nCertificates, generated by `tools/mkfiat.py`.\n-/\n',
         f'namespace Gost.{K.name}\n', 'open Fiat\n', 'set_option maxRecDepth 1000000\n',
         f'local notation "p" => ec_{c}.p\n', f'/-- The weights of the limbs. -/\ndef W : List Nat := {nums(W)}']
    def cdef(n, l): o.append(f'def {n} : List Nat :=\n  {certl(l)}\n')
    def thm(n, s): o.append(f'theorem {n} : {s} := by decide +kernel\n')
    if not K.mont:
        o.append(f'/-- Bounds of the limbs of field elements. -/\ndef bal : List Nat := {nums(K.bal)}')
        o.append(f'/-- Bounds of the limbs of products, sums and differences. -/\ndef tight : List Nat := {nums(K.tight)}')
        o.append(f'/-- Bounds before the carries of sums and differences. -/\ndef wide : List Nat := {nums(K.wide)}')
        sbv = [2**s - 1 for s in K.size]
        o.append(f'def sb : List Nat := {nums(sbv)}\n')
        def chk(i, n, ia, ib, target, bound, form, A, B, ob, N=p, Ns='p'):
            P = K.g(n); env = forward(P, {**bnd(ia), **(bnd(ib, 'b') if ib else {})}, half=half)
            ob_ = [env[x][1] for x in xs(P['out'])]
            assert all(x <= y for x, y in zip(ob_, bound)), n
            cdef(f'k{i}', cert(P, env, lin(xs(P['out']), W) + target, N))
            thm(f'c{i}', f'check [] {n} {A} {B} k{i} (lin false 1 W (vars {n}.out) ++ {form}) {Ns} {n}.out {ob} = true')
        aw = args(L); bw = args(L, 'b')
        chk(1, 'carry_mul', K.bal, K.bal, prod(L, W, c=-1), K.tight, 'prodForm true W (argsA bal.length) (argsB bal.length)', 'bal', 'bal', 'tight')
        chk(2, 'carry_square', K.bal, None, prod(L, W, True, -1), K.tight, 'prodForm true W (argsA bal.length) (argsA bal.length)', 'bal', '[]', 'tight')
        chk(3, 'carry', K.wide, None, lin(aw, W, -1), K.tight, 'lin true 1 W (argsA wide.length)', 'wide', '[]', 'tight')
        chk(4, 'add', K.bal, K.bal, lin(aw, W, -1) + lin(bw, W, -1), K.wide, '(lin true 1 W (argsA bal.length) ++ lin true 1 W (argsB bal.length))', 'bal', 'bal', 'wide')
        chk(5, 'sub', K.bal, K.bal, lin(aw, W, -1) + lin(bw, W, 1), K.wide, '(lin true 1 W (argsA bal.length) ++ lin false 1 W (argsB bal.length))', 'bal', 'bal', 'wide')
        chk(6, 'opp', K.bal, None, lin(aw, W, 1), K.bal, 'lin false 1 W (argsA bal.length)', 'bal', '[]', 'bal')
        chk(7, 'from_bytes', [255] * nb, None, lin(args(nb), [256**i for i in range(nb)], -1), K.tight,
            f'lin true 1 (byteW {nb}) (argsA (List.replicate {nb} 255).length)', f'(List.replicate {nb} 255)', '[]', 'tight', 0, '0')
        P = K.g('to_bytes'); R = 2**K.bits
        cm = [s for s in P['code'] if s[0] == 'cmov']; f = cm[0][3][1]; assert len(cm) == 1
        sbs = [s for s in P['code'] if s[0] == 'sbb']; assert len(sbs) == L
        env = forward(P, bnd(K.tight), half=half)
        ch = cert(P, env, lin(xs([s[2] for s in sbs]), W) + [(-R, ('x', f)), (p, ('c', 1))] + lin(aw, W, -1))
        cc = []
        for v in (0, 1):
            env = forward(P, bnd(K.tight), {f: v}, half=half)
            cc.append(cert(P, env, lin(xs(P['out']), [256**i for i in range(nb)]) + lin(aw, W, -1) + ([(p, ('c', 1))] if v == 0 else []), R))
        o.append(f'def kb : CondCert where\n  ts := argsA {L}\n  ss := {nums([s[2] for s in sbs])}\n  bf := {f}\n  chain := {certl(ch)}\n  c0 := {certl(cc[0])}\n  c1 := {certl(cc[1])}\n')
        thm('c8', f'condChecks [] to_bytes tight [] kb W sb (byteW {nb}) (List.replicate {nb} 255) p (256 ^ {nb}) (256 ^ {nb}) = true')
        o.append(f'''theorem facts : SolFacts file p {nb} W bal tight :=
  SolFacts.of_checks (wide := wide) (sb := sb) (K := kb) c1 c2 c3 c4 c5 c6 c7 c8 rfl rfl (by decide +kernel) (by decide +kernel) (by decide +kernel)
    (by decide +kernel) (by decide +kernel) (by decide +kernel) (by decide +kernel) (by decide +kernel) (by decide +kernel)

/-- The field operations of the file, on limbs within `bal`, are those modulo `p`. -/
theorem field_sound [Fact (Nat.Prime p)] : file.ops.Sound p {nb} (fun x => Bounded x bal) (solVal p W) :=
  facts.sound (by decide +kernel) (by decide +kernel)
''')
    else:
        w = 2**half; R = 2**(half * L); full = [w - 1] * L; mp = (-pow(p, -1, w)) % w; R2 = R * R % p
        o.append(f'def W1 : List Nat := {nums(W + [R])}\ndef full : List Nat := {nums(full)}\ndef full1 : List Nat := {nums(full + [w - 1])}\ndef R : Nat := {R}\ndef R2 : Nat := {R2}\n')
        aw = args(L); bw = args(L, 'b')
        def red(i, n, two, target, form, fac):
            P = K.g(n); us = used(P)
            inb = {**bnd(full), **(bnd(full, 'b') if two else {})}
            env = forward(P, inb, half=half)
            cm = [s for s in P['code'] if s[0] == 'cmov']; assert len(cm) == L
            bf = cm[0][3]; sbs = [s for s in P['code'] if s[0] == 'sbb']; assert len(sbs) == L + 1
            t = [s[5] for s in sbs]
            zs = [s[2] for s in P['code'] if s[0] == 'adc' and s[2] not in us] if n != 'add' else []
            qs = [s[2] for s in P['code'] if s[0] == 'mulx' and s[5] == ('c', mp)] if n != 'add' else []
            zc = [cert(P, env, [(1, ('x', z))], w) for z in zs]
            as_ = {z: 0 for z in zs}
            env = forward(P, inb, as_, half=half)
            f_ = R if fac == 'R' else 1
            main = cert(P, env, lin(t, W + [R], f_) + target + lin(xs(qs), W, -p), 0, zs)
            chain = cert(P, env, lin(xs([s[2] for s in sbs]), W + [R]) + [(-R * w, bf), (p, ('c', 1))] + lin(t, W + [R], -1), 0, zs)
            cc = []
            for v in (0, 1):
                env = forward(P, inb, {**as_, bf[1]: v}, half=half)
                cc.append(cert(P, env, lin(xs(P['out']), W) + lin(t, W + [R], -1) + ([(p, ('c', 1))] if v == 0 else []), R, zs))
            o.append(f'def k{i} : RedCert where\n  zs := {nums(zs)}\n  zc := [' + ',\n    '.join(certl(z) for z in zc) + f']\n  qs := {nums(qs)}\n  main := {certl(main)}\n  cond := ⟨[' + ', '.join(ex(x) for x in t) + f'], {nums([s[2] for s in sbs])}, {bf[1]},\n    {certl(chain)},\n    {certl(cc[0])},\n    {certl(cc[1])}⟩\n')
            thm(f'c{i}', f'redChecks {n} full {"full" if two else "[]"} k{i} ({form}) {fac} {w} R p W W1 full full1 = true')
        fa, fb = '(argsA full.length)', '(argsB full.length)'
        red(1, 'mul', True, prod(L, W, c=-1), f'prodForm true W {fa} {fb}', 'R')
        red(2, 'square', False, prod(L, W, True, -1), f'prodForm true W {fa} {fa}', 'R')
        red(3, 'add', True, lin(aw, W, -1) + lin(bw, W, -1), f'lin true 1 W {fa} ++ lin true 1 W {fb}', '1')
        red(4, 'from_montgomery', False, lin(aw, W, -1), f'lin true 1 W {fa}', 'R')
        red(5, 'to_montgomery', False, lin(aw, W, -R2), f'lin true R2 W {fa}', 'R')
        for i, n in ((6, 'sub'), (7, 'opp')):
            P = K.g(n); cm = [s for s in P['code'] if s[0] == 'cmov']; assert len(cm) == 1; f = cm[0][3][1]
            sbs = [s for s in P['code'] if s[0] == 'sbb']; assert len(sbs) == L
            inb = {**bnd(full), **(bnd(full, 'b') if n == 'sub' else {})}
            env = forward(P, inb, half=half)
            tgt = lin(aw, W, -1) + lin(bw, W) if n == 'sub' else lin(aw, W)
            ch = cert(P, env, lin(xs([s[2] for s in sbs]), W) + [(-R, ('x', f))] + tgt)
            cc = []
            for v in (0, 1):
                env = forward(P, inb, {f: v}, half=half)
                cc.append(cert(P, env, lin(xs(P['out']), W) + tgt + ([(-p, ('c', 1))] if v else []), R))
            o.append(f'def k{i} : SubCert where\n  ss := {nums([s[2] for s in sbs])}\n  bf := {f}\n  chain := {certl(ch)}\n  c0 := {certl(cc[0])}\n  c1 := {certl(cc[1])}\n')
            form = f'lin true 1 W {fa} ++ lin false 1 W {fb}' if n == 'sub' else f'lin false 1 W {fa}'
            thm(f'c{i}', f'subChecks {n} full {"full" if n == "sub" else "[]"} k{i} ({form}) R p W full = true')
        P = K.g('from_bytes'); env = forward(P, bnd([255] * nb), half=half)
        cdef('k8', cert(P, env, lin(xs(P['out']), W) + lin(args(nb), [256**i for i in range(nb)], -1)))
        thm('c8', f'check [] from_bytes (List.replicate {nb} 255) [] k8 (lin false 1 W (vars from_bytes.out) ++ lin true 1 (byteW {nb}) (argsA (List.replicate {nb} 255).length)) 0 from_bytes.out full = true')
        P = K.g('to_bytes'); env = forward(P, bnd(full), half=half)
        cdef('k9', cert(P, env, lin(xs(P['out']), [256**i for i in range(nb)]) + lin(aw, W, -1)))
        thm('c9', f'check [] to_bytes full [] k9 (lin false 1 (byteW {nb}) (vars to_bytes.out) ++ lin true 1 W {fa}) 0 to_bytes.out (List.replicate {nb} 255) = true')
        d = '(by decide +kernel)'
        o.append(f'''/-- The field operations of the file, on words standing for numbers less than `p` in Montgomery form, are those modulo `p`. -/
theorem field_sound [Fact (Nat.Prime p)] : file.ops.Sound p {nb} (montOk p W full) (montVal p R W) :=
  FiatMont.sound_of_checks (w := {w}) (R2 := R2) (W1 := W1) (full1 := full1) (K1 := k1) (K2 := k2) (K3 := k3) (K4 := k4) (K5 := k5) (J1 := k6) (J2 := k7)
    c1 c2 c3 c4 c5 c6 c7 c8 c9 {d} {d} {d} {d} {d} {d} {d} {d} {d} ⟨rfl, rfl, rfl, rfl, rfl, rfl, rfl⟩
    ⟨{d}, {d}, rfl, {d}, {d}⟩ {d} {d} {d} {d}
''')
    o.append(f'end Gost.{K.name}')
    return '\n'.join(o) + '\n'

# ---- tables of multiples
def wdbl(P, a, p):
    x, y = P; l = (3 * x * x + a) * pow(2 * y, -1, p) % p; x3 = (l * l - 2 * x) % p
    return x3, (l * (x - x3) - y) % p
def eadd(P, Q, d, p):
    (a, b), (c, e) = P, Q; t = d * a * b * c * e % p
    return (a * e + b * c) * pow(1 + t, -1, p) % p, (b * e - a * c) * pow(1 - t, -1, p) % p
def edparams(K):
    p = K.p
    W = K.W
    val = lambda l: sum(a * b for a, b in zip(l, W)) % p
    assert not K.mont
    S, T, d = [val(K.C['const_' + n][2]) for n in 'STd']
    assert d == (1 - 4 * S) % p and (3 * T + 2 * S - 1) % p == 0
    return S, T, d
def chain(K):
    p, r = K.p, K.row
    n = max(5 * cols * (rws - 1) + 1 for rws, cols in (shape(K.c, 64), shape(K.c, 32)))
    if K.ed:
        S, T, d = edparams(K)
        P = ((r['x'] - T) * pow(r['y'], -1, p) % p, (r['x'] - T - S) * pow(r['x'] - T + S, -1, p) % p)
    else: P = (r['x'], r['y'])
    P0 = P
    res = []
    for _ in range(n):
        P = eadd(P, P, d, p) if K.ed else wdbl(P, r['a'], p)
        res.append(P)
    return P0, res
def chain_file(K):
    c = K.c; P0, l = chain(K)
    o = [f'import Verif.Lemmas.EcpTable', 'import Verif.Model.EcParams\n',
         f"/-!\n# Doublings of the base point of the curve `ec_{c}`{' in Edwards coordinates' if K.ed else ''}\n\nGenerated by `tools/mkfiat.py`.\n-/\n",
         f'namespace Gost.EcpChain_{c}\n', 'open Fiat\n', 'set_option maxRecDepth 1000000\n']
    if K.ed:
        S, T, d = edparams(K)
        o.append(f'def S : Nat := {hex(S)}\ndef T : Nat := {hex(T)}\ndef d : Nat := {hex(d)}\ndef u : Nat := {hex(P0[0])}\ndef v : Nat := {hex(P0[1])}\n')
    o.append('def chain : List (Nat × Nat) := [\n  ' + ',\n  '.join(f'({hex(x)}, {hex(y)})' for x, y in l) + ']\n')
    f = f'chainB (fun x1 y1 => eAddB ec_{c}.p d x1 y1 x1 y1) u v' if K.ed else f'chainB (wDblB ec_{c}.p ec_{c}.a) ec_{c}.x ec_{c}.y'
    o.append(f'theorem chain_ok : {f} chain = true := by decide +kernel\n')
    o.append(f'end Gost.EcpChain_{c}')
    return '\n'.join(o) + '\n'
def curve_file(K):
    c, nb, p = K.c, K.nb, K.p
    rws, cols = shape(c, K.half); n = 51 if nb == 32 else 102
    src = 'EcCurves256' if nb == 32 else 'EcCurves512' if c.endswith('A') else 'EcCurves512b' if c.endswith('B') else 'EcCurves512c'
    ec = f'ec_{c}'
    if K.mont:
        R = 2**(K.half * K.L); rinv = pow(R, -1, p)
        okB, ok, val = f'(montOkB {ec}.p W full)', f'(montOk {ec}.p W full)', f'(montVal {ec}.p R W)'
        hok = '(fun _ h => montOkB_sound h)'; hdec = f'(decL_mont (R := R) (by decide +kernel) W)'
    else:
        rinv = 1
        okB, ok, val = '(fun l => boundedB l bal)', '(fun x => Bounded x bal)', f'(solVal {ec}.p W)'
        hok = '(fun _ h => boundedB_sound h)'; hdec = '(decL_sol W)'
    A = 'AffE' if K.ed else 'AffW'
    o = [f'import Verif.Lemmas.Ecp.{K.file}', f'import Verif.Lemmas.Ecp.{c}_Chain', f'import Verif.Lemmas.{src}', 'import Verif.Props.Ecp\n',
         f"/-!\n# The curve of `/repo/{FILES[c][0]}`, {K.half} bit version\n\nGenerated by `tools/mkfiat.py`.\n-/\n",
         f'namespace Gost.{K.name}\n', 'open Fiat\n', 'set_option maxRecDepth 1000000\n',
         f'/-- 1, or the inverse of the Montgomery radix. -/\ndef rinv : Nat := {num(rinv)}\n',
         f'theorem rows16 : (lut_data.all fun r => Nat.beq r.length 16) = true := by decide +kernel\n']
    base = '(EcpChain_%s.u, EcpChain_%s.v)' % (c, c) if K.ed else f'({ec}.x, {ec}.y)'
    addB = f'(eAddB {ec}.p EcpChain_{c}.d)' if K.ed else f'(wAddB {ec}.p)'
    o.append(f'theorem table_ok : tabB {addB} (fun e : {A} (List Nat) => decL {ec}.p rinv W e.X) (fun e => decL {ec}.p rinv W e.Y) (5 * {cols}) ({base} :: EcpChain_{c}.chain) lut_data = true := by\n  decide +kernel\n')
    if K.ed:
        o.append(f'theorem entries_ok : (lut_data.all fun r => r.all fun e => {okB} e.X && ({okB} e.Y && ({okB} e.T &&\n      Nat.beq (decL {ec}.p rinv W e.T) (decL {ec}.p rinv W e.X * decL {ec}.p rinv W e.Y % {ec}.p)))) = true := by\n  decide +kernel\n')
        o.append(f"""/-- The Edwards form of the curve. -/
theorem ed_ok [Fact ({ec}.p.Prime)] : EdParams (EcpChain_{c}.S : ZMod {ec}.p) (EcpChain_{c}.T : ZMod {ec}.p) (EcpChain_{c}.d : ZMod {ec}.p) ∧
    ¬ IsSquare (EcpChain_{c}.S : ZMod {ec}.p) ∧ edA (EcpChain_{c}.S : ZMod {ec}.p) (EcpChain_{c}.T : ZMod {ec}.p) = {ec}.a ∧
    edB (EcpChain_{c}.S : ZMod {ec}.p) (EcpChain_{c}.T : ZMod {ec}.p) = {ec}.b := edCheck_spec edwards_{c}

theorem curve [Fact ({ec}.p.Prime)] (gen : CurvePoint (edA (EcpChain_{c}.S : ZMod {ec}.p) (EcpChain_{c}.T : ZMod {ec}.p)) (edB (EcpChain_{c}.S : ZMod {ec}.p) (EcpChain_{c}.T : ZMod {ec}.p)))
    (hg : EPt _ _ EcpChain_{c}.u EcpChain_{c}.v gen) (ho : {ec}.q • gen = 0) :
    ECurve file.ops lut_cmb {ec}.p {nb} {n} {rws} {cols} {ok} {val} (EcpChain_{c}.S : ZMod {ec}.p) (EcpChain_{c}.T : ZMod {ec}.p) (EcpChain_{c}.d : ZMod {ec}.p) gen {ec}.q where
  field := field_sound
  fits := ⟨cast_of_mod (by decide +kernel), cast_of_mod (by decide +kernel), cast_of_mod (by decide +kernel)⟩
  params := ed_ok.1
  S_nonsq := ed_ok.2.1
  order := ho
  order_odd := by decide +kernel
  table := eTable ed_ok.1 {hok} {hdec} rfl rows16 entries_ok EcpChain_{c}.chain_ok table_ok rfl hg
  rows_pos := by decide
  cols_pos := by decide
  comb := by decide
  digits := by decide
  nb_pos := by decide
  size := by decide +kernel
""")
    else:
        if K.mont:
            o.append(f'theorem entries0 : (lut_data.all fun r => r.all (montEntB {ec}.p {2**K.half} {K.L} W full)) = true := by decide +kernel\n')
            ent = f'(mont_entries (R := R) (rinv := rinv) field_sound rfl (by decide +kernel) rfl rfl (by decide) (by decide) entries0)'
        else:
            ent = 'entries_ok'
            o.append(f'theorem entries_ok : (lut_data.all fun r => r.all fun e => {okB} e.X && ({okB} e.Y && (file.ops.nonzero e.Y && file.ops.nonzero (file.ops.opp e.Y)))) = true := by\n  decide +kernel\n')
        gen = 'const_a' in K.C
        progs = 'genProgs' if gen else 'am3Progs'
        if gen and K.mont: fits = 'Or.inr ⟨rfl, by change montVal _ R W consts.a = _; rw [← decL_mont (rinv := rinv) (by decide +kernel)]; exact cast_of_mod (by decide +kernel), by change montVal _ R W consts.b3 = _; rw [← decL_mont (rinv := rinv) (by decide +kernel), show (3 : ZMod ec_%s.p) = ((3 : Nat) : ZMod ec_%s.p) from rfl, ← Nat.cast_mul]; exact cast_of_mod (by decide +kernel)⟩' % (c, c)
        elif gen: raise Exception
        else:
            am3 = 'am3_of (by decide +kernel)'
            if K.mont: fits = f'Or.inl ⟨rfl, {am3}, by change montVal _ R W consts.b = _; rw [← decL_mont (rinv := rinv) (by decide +kernel)]; exact cast_of_mod (by decide +kernel)⟩'
            else: fits = f'Or.inl ⟨rfl, {am3}, cast_of_mod (by decide +kernel)⟩'
        o.append(f"""theorem curve [Fact ({ec}.p.Prime)] (gen : CurvePoint ({ec}.a : ZMod {ec}.p) ({ec}.b : ZMod {ec}.p)) (hg : WPt _ _ {ec}.x {ec}.y gen) :
    WCurve file.ops {progs} lut_cmb {ec}.p {nb} {n} {rws} {cols} {ok} {val} ({ec}.a : ZMod {ec}.p) ({ec}.b : ZMod {ec}.p) gen where
  field := field_sound
  fits := {fits}
  odd := two_ne_zero_of (by decide +kernel)
  no_order2 := noRoot noRoot_{c}
  table := wTable {hok} {hdec} rfl rows16 {ent} EcpChain_{c}.chain_ok table_ok rfl hg
  rows_pos := by decide
  cols_pos := by decide
  comb := by decide
  digits := by decide
  nb_pos := by decide
  size := by decide +kernel
""")
    o.append(f'end Gost.{K.name}')
    return '\n'.join(o) + '\n'

if __name__ == '__main__':
    half = int(sys.argv[1]) if len(sys.argv) > 1 else 64
    only = sys.argv[2:] or list(FILES)
    os.makedirs(ROOT + '/Model/Ecp', exist_ok=True); os.makedirs(ROOT + '/Lemmas/Ecp', exist_ok=True)
    for c in only:
        K = Curve(c, half)
        open(f'{ROOT}/Model/Ecp/{K.file}.lean', 'w').write(model(K))
        open(f'{ROOT}/Lemmas/Ecp/{K.file}.lean', 'w').write(lemmas(K))
        if half == 64: open(f'{ROOT}/Lemmas/Ecp/{c}_Chain.lean', 'w').write(chain_file(K))
        open(f'{ROOT}/Lemmas/Ecp/{K.file}_Curve.lean', 'w').write(curve_file(K))
        print(c, half, 'mont' if K.mont else 'sol', 'ed' if K.ed else 'w')
