#!/usr/bin/env python3
"""Writes /verif/MANIFEST.json from the theorems in lean/Verif/Props and the notes below."""
import json, os, re, glob
root = os.path.dirname(os.path.dirname(os.path.abspath(__file__)))
exec(open(os.path.join(root, "tools", "notes.py")).read())  # STATUS: id -> (status, note)
thms = {}
for f in sorted(glob.glob(os.path.join(root, "lean/Verif/Props/*.lean"))):
    ns = []
    for line in open(f):
        m = re.match(r"namespace (\S+)", line)
        if m: ns.append(m.group(1)); continue
        m = re.match(r"end (\S+)", line)
        if m and ns and ns[-1] == m.group(1): ns.pop(); continue
        m = re.match(r"(?:protected )?theorem (C(\d\d+)_\S+)", line)
        if m:
            thms.setdefault("C" + m.group(2), []).append(".".join(ns + [m.group(1)]))
ids = [json.loads(l)["id"] for l in open(os.path.join(root, "properties.jsonl"))]
claims = []
for i in ids:
    st, note = STATUS.get(i, (None, None))
    t = thms.get(i, [])
    if st is None:
        if t: print("no status for", i, t)
        continue
    if not t and st != "not_applicable": print("no theorem for", i); continue
    claims.append(dict(property=i, status=st, theorems=t, note=note))
json.dump(dict(claims=claims), open(os.path.join(root, "MANIFEST.json"), "w"), indent=1, ensure_ascii=False)
print(len(claims), "claims,", sum(len(c["theorems"]) for c in claims), "theorems")
