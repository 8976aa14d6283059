"""Constants, tables and inversion chains of /repo/ecp_*.c (see fiatparse.py for the straight-line functions)."""
import re
from fiatparse import *
from ecconsts import rows, D

def numbers(t): return [int(x, 16) for x in re.findall(r'UINT(?:32|64)_C\((0x[0-9a-fA-F]+)\)', t)]

def decl(curve, half, name):
    """first line, last line, text of the initialiser of a table"""
    lines, off, pre = load(curve, half)
    i = next(k for k, l in enumerate(lines) if re.match(r'static const (limb_t|pt_aff_t) ' + name + r'\b', l))
    j = i
    while not lines[j].rstrip().endswith('};'): j += 1
    return off + i + 1, off + j + 1, '\n'.join(lines[i:j + 1])

def consts(curve, half):
    lines, off, pre = load(curve, half)
    res = {}
    for l in lines:
        m = re.match(r'static const limb_t (const_\w+)\[(\d+)\]', l)
        if m:
            a, b, t = decl(curve, half, m.group(1))
            v = numbers(t); assert len(v) == int(m.group(2))
            res[m.group(1)] = (a, b, v)
    return res

def lut(curve, half):
    a, b, t = decl(curve, half, 'lut_cmb')
    m = re.match(r'static const pt_aff_t lut_cmb\[(\d+)\]\[16\]', t)
    n = int(m.group(1)); v = numbers(t)
    L = len(consts(curve, half)['const_one'][2])
    k = len(v) // (n * 16 * L); assert k * n * 16 * L == len(v)
    it = iter(v)
    return a, b, [[[[next(it) for _ in range(L)] for _ in range(k)] for _ in range(16)] for _ in range(n)]

def inv(curve, half):
    a, b, body, head = funcs(curve, half)['inv']
    pre = 'fiat_' + FILES[curve][1] + '_'
    arg = re.search(r'const\s+fe_t\s+(\w+)\)', head).group(1)
    t = re.sub(r'/\*.*?\*/', '', body, flags=re.S)
    res = []; rep = 1
    for s in t.split(';'):
        s = ' '.join(s.split())
        if s.startswith('for'):
            t2 = s; continue_ = True
        m = re.match(r'^(?:i\+\+\) )?' + pre + r'(carry_mul|carry_square|mul|square)\((\w+), (\w+)(?:, (\w+))?\)$', s)
        if m:
            n = loop if s.startswith('i++') else 1
            res.append((('mul', m.group(2), m.group(3), m.group(4)) if 'mul' in m.group(1) else ('sq', m.group(2), m.group(3))) + (n,))
            continue
        m = re.match(r'^i < (\d+)$', s)
        if m: loop = int(m.group(1)); continue
        if s in ('', 'int i') or s.startswith('fe_t ') or s == 'for (i = 0': continue
        raise Exception(s)
    return a, b, arg, res

def shape(curve, half):
    lines, off, pre = load(curve, half)
    t = '\n'.join(lines)
    k = t.index('fixed_smul_cmb(')
    cols = int(re.search(r'for \(i = (\d+); i >= 0', t[k:]).group(1)) + 1
    rws = int(re.search(r'for \(j = 0; j < (\d+); j\+\+\) \{', t[k:]).group(1))
    return rws, cols

if __name__ == '__main__':
    from math import ceil
    from fractions import Fraction
    for half in (64, 32):
        for c in FILES:
            r = rows['ec_' + c]; p = r['p']; bits = 512 if '512' in c else 256
            C = consts(c, half); L = len(C['const_one'][2]); mont = 'mul' in funcs(c, half)
            W = [2**(half * i) for i in range(L)] if mont else [2**ceil(Fraction(bits * i, L)) for i in range(L)]
            R = 2**(half * L) if mont else 1
            val = lambda l: sum(a * b for a, b in zip(l, W)) * pow(R, -1, p) % p
            a, b, tab = lut(c, half)
            e = {inv(c, half)[2]: 1}
            for s in inv(c, half)[3]:
                for _ in range(s[-1]):
                    e[s[1]] = 2 * e[s[2]] if s[0] == 'sq' else e[s[2]] + e[s[3]]
            x0 = [val(l) for l in tab[0][0]]
            low = 0
            if 'const_S' not in C:
                for row in tab:
                    for ent in row:
                        o = 0
                        for l in ent[1]: o |= l
                        if o % 256 == 0: low += 1
            print(half, c, L, 'mont' if mont else 'sol', len(tab), len(tab[0][0][0:]), shape(c, half), e['output'] == p - 2, x0[0] == r['x'] and x0[1] == r['y'], {k: hex(val(v[2]))[:12] for k, v in C.items()}, 'low', low, len(inv(c,half)[3]))
