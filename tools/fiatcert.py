"""Certificates for the checker of lean/Verif/Lemmas/FiatCheck.lean.

A certificate is a list of entries (statement index, kind, sign, cofactor atom, coefficient): kind 0 is the statement's equation,
kind 1 / 2 is "first / second variable set = the value its interval forces".  The sum of the entries is the given form, modulo N.
"""
from fiatparse import *
class Fail(Exception): pass
def cA(i): return 1 + 4 * i
def cB(i): return 2 + 4 * i
def cX(n): return 3 + 4 * n
def src(e): return {'a': 0, 'b': 1, 'x': 2}[e[0]] + 3 * e[1]
def cQ(e, k): return 4 + 4 * (src(e) * 256 + k)
def isX(c): return c > 0 and (c - 1) % 4 == 2
def atom(e):
    if e[0] == 'a': return cA(e[1])
    if e[0] == 'b': return cB(e[1])
    if e[0] == 'x': return cX(e[1])
    raise Fail(('atom', e))
def ival(e, env):
    t = e[0]
    if t in 'abx': return env[e]
    if t == 'c': return (e[1], e[1])
    if t in ('add', 'sub', 'mul'):
        (l, h), (l2, h2) = ival(e[2], env), ival(e[3], env)
        if t == 'sub':
            if l < h2 or h >= 2**e[1]: raise Fail(e)
            return (l - h2, h - l2)
        if t == 'add':
            if h + h2 >= 2**e[1]: raise Fail(e)
            return (l + l2, h + h2)
        if h * h2 >= 2**e[1]: raise Fail(e)
        return (l * l2, h * h2)
    if t == 'shr':
        l, h = ival(e[1], env); return (l >> e[2], h >> e[2])
    if t == 'shl':
        l, h = ival(e[2], env)
        if h << e[3] >= 2**e[1]: raise Fail(e)
        return (l << e[3], h << e[3])
    if t == 'and':
        (l, h), (l2, h2) = ival(e[1], env), ival(e[2], env)
        if l == h and l2 == h2: return (l & l2,) * 2
        return (0, min(h, h2))
    if t == 'cast':
        l, h = ival(e[2], env)
        if h >= 2**e[1]: raise Fail(e)
        return (l, h)
    raise Fail(e)
def forward(P, inb, assume={}, half=64):
    env = dict(inb)
    def put(n, iv):
        if n in assume: iv = (assume[n],) * 2
        env[('x', n)] = iv
    for s in P['code']:
        if s[0] == 'set': put(s[1], ival(s[2], env))
        elif s[0] == 'adc':
            u = s[1]; c, a, b = [ival(e, env) for e in s[4:]]
            l, h = c[0] + a[0] + b[0], c[1] + a[1] + b[1]
            if h >= 2**(2 * half if u == half else half) or h >> u > 255: raise Fail(s)
            put(s[2], (l, h) if h < 2**u else (0, 2**u - 1)); put(s[3], (l >> u, h >> u))
        elif s[0] == 'sbb':
            u = s[1]; p, q, r = [ival(e, env) for e in s[4:]]
            H = 2**((2 * half if u == half else half) - 1)
            if not (q[1] < H and p[1] + r[1] <= H and q[1] < 2**u + r[0] + p[0] and p[1] + r[1] <= q[0] + 2**u): raise Fail(s)
            put(s[2], (q[0] - r[1] - p[1], q[1] - r[0] - p[0]) if p[1] + r[1] <= q[0] else (0, 2**u - 1))
            put(s[3], (1 if q[1] < r[0] + p[0] else 0, 0 if p[1] + r[1] <= q[0] else 1))
        elif s[0] == 'mulx':
            u = s[1]; a, b = [ival(e, env) for e in s[4:]]
            l, h = a[0] * b[0], a[1] * b[1]
            if a[1] >= 2**u or b[1] >= 2**u: raise Fail(s)
            put(s[2], (l, h) if h < 2**u else (0, 2**u - 1)); put(s[3], (l >> u, h >> u))
        elif s[0] == 'cmov':
            f, a, b = [ival(e, env) for e in s[3:]]
            if a[1] >= 2**s[1] or b[1] >= 2**s[1]: raise Fail(s)
            if f[1] == 0: put(s[2], a)
            elif f[0] > 0: put(s[2], b)
            else: put(s[2], (min(a[0], b[0]), max(a[1], b[1])))
    return env
def add(F, k, c):
    r = F.get(k, 0) + c
    if r: F[k] = r
    else: F.pop(k, None)
def key(i, j): return (max(i, j), min(i, j))
def go(F, cof, c, e, env=None):
    """F += c * cof * e, as in the checker."""
    t = e[0]
    if t in 'abx': add(F, key(atom(e), cof), c)
    elif t == 'c': add(F, key(0, cof), c * e[1])
    elif t == 'add': go(F, cof, c, e[2], env); go(F, cof, c, e[3], env)
    elif t == 'sub': go(F, cof, c, e[2], env); go(F, cof, -c, e[3], env)
    elif t == 'mul':
        if e[2][0] == 'c': go(F, cof, c * e[2][1], e[3], env)
        elif e[3][0] == 'c': go(F, cof, c * e[3][1], e[2], env)
        else:
            if cof: raise Fail(('deg', e))
            go(F, atom(e[2]), c, e[3], env)
    elif t == 'shl': go(F, cof, c * 2**e[3], e[2], env)
    elif t == 'cast': go(F, cof, c, e[2], env)
    elif t == 'shr':
        if e[2] >= 256: raise Fail(e)
        add(F, key(cQ(e[1], e[2]), cof), c)
    elif t == 'and':
        if env is not None:
            l, h = ival(e, env)
            if l == h: add(F, key(0, cof), c * l); return
        m = e[2][1]; k = m.bit_length()
        if e[2][0] != 'c' or m != 2**k - 1: raise Fail(e)
        add(F, key(atom(e[1]), cof), c); add(F, key(cQ(e[1], k), cof), -c * 2**k)
    else: raise Fail(e)
def coefs(F, v):
    # squares of variables are not eliminated
    return [(k[1] if k[0] == v else k[0], c) for k, c in F.items() if v in k and k[0] != k[1]]
def cert(P, env, form, N=0, zeros=(), upto=None):
    """form: list of (coefficient, expression)"""
    F = {}
    for c, e in form: go(F, 0, c, e)
    res = []
    def nz(cs): return [(j, c) for j, c in cs if (c % N if N else c)]
    code = P['code'] if upto is None else P['code'][:upto]
    for i in reversed(range(len(code))):
        s = code[i]
        def use(kind, cof, c):
            if kind == 0:
                if s[0] == 'set': go(F, cof, -c, ('x', s[1])); go(F, cof, c, s[2], env)
                elif s[0] in ('adc', 'sbb', 'mulx'):
                    sg = -1 if s[0] == 'sbb' else 1
                    go(F, cof, -c, ('x', s[2])); go(F, cof, -c * sg * 2**s[1], ('x', s[3]))
                    if s[0] == 'mulx': go(F, cof, c, ('mul', 0, s[4], s[5]), env)
                    else: go(F, cof, c * sg, s[4], env); go(F, cof, c, s[5], env); go(F, cof, c * sg, s[6], env)
                else:
                    f = ival(s[3], env)
                    if not (f[1] == 0 or f[0] > 0): raise Fail(('cmov', s))
                    go(F, cof, -c, ('x', s[2])); go(F, cof, c, s[4] if f[1] == 0 else s[5], env)
            else:
                x = s[2] if s[0] in ('adc', 'sbb', 'mulx', 'cmov') else s[1]
                if kind == 2: x = s[3]
                l, h = env[('x', x)]
                if l != h: raise Fail(('const', i, x, c))
                go(F, cof, -c, ('x', x)); go(F, cof, c, ('c', l))
            res.append((i, kind, cof, c))
        if s[0] in ('set', 'cmov'):
            n = s[1] if s[0] == 'set' else s[2]
            for j, c in nz(coefs(F, cX(n))): use(0, j, c)
        else:
            n, m, u = s[2], s[3], s[1]; sg = -1 if s[0] == 'sbb' else 1
            # sbb: x_n - 2^u x_m = b - c - d
            if n in zeros:
                for j, c in nz(coefs(F, cX(m))):
                    if c % 2**u == 0: use(0, j, sg * c // 2**u)
                    elif env[('x', m)][0] != env[('x', m)][1]: raise Fail(('ndiv', s, c))
                for j, c in nz(coefs(F, cX(m))): use(2, j, c)
                for j, c in nz(coefs(F, cX(n))): use(1, j, c)
            else:
                for j, c in nz(coefs(F, cX(n))): use(0, j, c)
                for j, c in nz(coefs(F, cX(m))): use(2, j, c)
    if N: F = {k: c for k, c in F.items() if c % N}
    if F: raise Fail(('left', len(F), list(F.items())[:4]))
    res.reverse()
    return res
