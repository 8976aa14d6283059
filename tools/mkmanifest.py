#!/usr/bin/env python3
"""Writes /verif/MANIFEST.json: collects the theorems named Cnn_* in lean/Verif/Props and adds
the status and note of tools/status.json; also regenerates lean/Verif.lean."""
import json, os, re, glob
root = os.path.dirname(os.path.dirname(os.path.abspath(__file__)))
status = json.load(open(os.path.join(root, "tools", "status.json")))
props = [json.loads(l)["id"] for l in open(os.path.join(root, "properties.jsonl"))]
th = {}
for f in sorted(glob.glob(os.path.join(root, "lean/Verif/Props/**/*.lean"), recursive=True)):
    ns = []
    for line in open(f):
        m = re.match(r"namespace\s+(\S+)", line)
        if m: ns.append(m.group(1))
        m = re.match(r"end\s+(\S+)", line)
        if m and ns and ns[-1] == m.group(1): ns.pop()
        m = re.match(r"theorem\s+((C\d\d+)_\S+)", line)
        if m: th.setdefault(m.group(2), []).append(".".join(ns + [m.group(1)]))
claims = []
for p in props:
    s = status.get(p, {})
    if p not in th and s.get("status") != "not_applicable":
        continue
    claims.append(dict(property=p, status=s.get("status", "proved"), theorems=th.get(p, []),
                       note=s.get("note", "")))
    if s.get("status","proved")=="proved" and any("_partial" in t or "_false" in t for t in th.get(p,[])):
        print("WARN", p, "proved but has partial/false theorems")
missing=[p for p in props if p not in th]
print("missing:", missing)
for k in th:
    if k not in props: print("WARN theorem without property", k)
json.dump({"claims": claims}, open(os.path.join(root, "MANIFEST.json"), "w"), indent=1, ensure_ascii=False)
mods = []
for d in ["Model", "Spec", "Lemmas", "Props"]:
    for f in sorted(glob.glob(os.path.join(root, "lean/Verif", d, "**/*.lean"), recursive=True)):
        mods.append(os.path.relpath(f, os.path.join(root, "lean"))[:-5].replace("/", "."))
open(os.path.join(root, "lean/Verif.lean"), "w").write("".join("import %s\n" % m for m in mods))
