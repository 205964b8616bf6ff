#!/usr/bin/env python3
"""Collect the theorems Cnn_* from lean/Verif/Props and write MANIFEST.json.
Status and notes per property come from tools/status.json."""
import json, re, glob, os
root = os.path.dirname(os.path.dirname(os.path.abspath(__file__)))
status = json.load(open(f"{root}/tools/status.json"))
thms = {}
for f in sorted(glob.glob(f"{root}/lean/Verif/Props/*.lean")):
    ns = []
    for line in open(f):
        m = re.match(r"namespace (\S+)", line)
        if m: ns.append(m.group(1))
        m = re.match(r"end (\S+)", line)
        if m and ns and ns[-1] == m.group(1): ns.pop()
        m = re.match(r"theorem (C(\d\d\d?)(?:_\S+)?)(?=\s|$)", line)
        if m: thms.setdefault("C" + m.group(2), []).append(".".join(ns + [m.group(1)]))
claims = []
for l in open(f"{root}/properties.jsonl"):
    p = json.loads(l)["id"]
    if p in status:
        s = status[p]
        claims.append({"property": p, "status": s["status"], "theorems": thms.get(p, []), "note": s["note"]})
    elif p in thms:
        print("no status for", p)
json.dump({"claims": claims}, open(f"{root}/MANIFEST.json", "w"), indent=1)
print(len(claims), "claims", sum(len(c["theorems"]) for c in claims), "theorems")
