#!/usr/bin/env python3
"""Write MANIFEST.json: theorem names are collected from lean/Verif/Props*.lean
(theorems named Cnn_...), statuses and notes from tools/claims.json."""
import json, re, glob, os
root = os.path.dirname(os.path.dirname(os.path.abspath(__file__)))
props = [json.loads(l)["id"] for l in open(f"{root}/properties.jsonl") if l.strip()]
claims = json.load(open(f"{root}/tools/claims.json"))
names = {}
for p in sorted(glob.glob(f"{root}/lean/Verif/Props*.lean")):
    ns = []
    for line in open(p):
        m = re.match(r"namespace (\S+)", line)
        if m: ns.append(m.group(1))
        m = re.match(r"end (\S+)", line)
        if m and ns and ns[-1] == m.group(1): ns.pop()
        m = re.match(r"theorem (C\d+)(_\S+)", line)
        if m: names.setdefault(m.group(1), []).append(".".join(ns + [m.group(1) + m.group(2)]))
out = []
for c in props:
    t = names.get(c, [])
    info = claims.get(c, {})
    status = info.get("status")
    if not t and status != "not_applicable":
        continue
    out.append({"property": c, "status": status or "partial", "theorems": t, "note": info.get("note", "")})
json.dump({"claims": out}, open(f"{root}/MANIFEST.json", "w"), indent=1, ensure_ascii=False)
print(len(out), "claims;", "without claim:", [c for c in props if c not in {o["property"] for o in out}])
