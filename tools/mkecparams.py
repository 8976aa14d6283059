#!/usr/bin/env python3
"""Generate lean/Verif/Model/EcParams.lean's tables from /repo/gost_params.c (the two arrays, field by field)."""
import re
src = open('/repo/gost_params.c').read()
lines = src.split('\n')
def table(name):
    st = next(i for i, l in enumerate(lines) if l.startswith(f'R3410_ec_params {name}[]'))
    en = next(i for i in range(st, len(lines)) if lines[i].startswith('};'))
    body = '\n'.join(lines[st:en + 1])
    body = re.sub(r'/\*.*?\*/', lambda m: '\n' * m.group(0).count('\n'), body, flags=re.S)
    res = []
    for m in re.finditer(r'\{(NID_\w+),((?:\s*"[0-9A-Fa-f]+"\s*,?|\s)*),?\s*NULL\}', body):
        l0 = st + body[:m.start()].count('\n') + 1
        l1 = st + body[:m.end()].count('\n') + 1
        txt = m.group(2)
        fields = []
        for part in txt.split(','):
            ss = re.findall(r'"([0-9A-Fa-f]+)"', part)
            if ss: fields.append(''.join(ss))
        assert len(fields) == 7, (m.group(1), fields)
        res.append((m.group(1), fields, l0, l1))
    return res, st + 1, en + 1
def short(n):
    n = n.replace('NID_id_GostR3410_2001_', '').replace('NID_id_tc26_gost_3410_2012_', 'tc26_').replace('_ParamSet', '').replace('ParamSet', '')
    return n
out = []
for tab in ['R3410_2001_paramset', 'R3410_2012_512_paramset']:
    es, a, b = table(tab)
    names = []
    for nid, f, l0, l1 in es:
        nm = 'ec_' + short(nid)
        names.append(nm)
        out.append(f'/-- `{nid}`, `/repo/gost_params.c` lines {l0}-{l1}. -/')
        out.append(f'def {nm} : EcParams where')
        out.append(f'  nid := .{short(nid)}')
        for k, v in zip(['a', 'b', 'p', 'q', 'x', 'y', 'cofactor'], f):
            out.append(f'  {k} := 0x{v}')
        out.append('')
    out.append(f'/-- `{tab}`, `/repo/gost_params.c` lines {a}-{b} (without the terminating entry). -/')
    out.append(f'def {tab} : List EcParams := [{", ".join(names)}]')
    out.append('')
print('\n'.join(out))
